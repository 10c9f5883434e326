/- Property theorems C54: the beta core between an AXI memory reader and an AXI memory writer. -/
import Verif.Props.Frames
import Verif.Props.Stream
import Verif.Props.Unpack64
import Verif.Props.Pack64
import Verif.Props.Reader
import Verif.Props.Writer
import Verif.Props.Small
import Verif.Model.FullAxi

set_option autoImplicit false

namespace Props
open Spec Model

/-! ### Observables of a run -/

def fullRun (c : CoreCfg) (a : Nat) : FullAxi → List FullIn → FullAxi
  | s, [] => s
  | s, i :: r => fullRun c a (s.step c a i) r

/-- What `f` observes in each cycle of a run. -/
def observe {α : Type} (c : CoreCfg) (a : Nat) (f : FullAxi → FullIn → α) : FullAxi → List FullIn → List α
  | _, [] => []
  | s, i :: r => f s i :: observe c a f (s.step c a i) r

/-- Data beats transferred on the AXI read port (`rvalid` and `rready`). -/
def readBeats (c : CoreCfg) (a : Nat) : FullAxi → List FullIn → List Nat
  | _, [] => []
  | s, i :: r => (if s.rd.rready && i.rvalid then [i.rdata] else []) ++ readBeats c a (s.step c a i) r

/-- Addresses of the read bursts requested (`arvalid` and `arready`). -/
def readBursts (c : CoreCfg) (a : Nat) : FullAxi → List FullIn → List Nat
  | _, [] => []
  | s, i :: r => (if s.rd.arvalid && i.arready then [s.agr.addr] else []) ++ readBursts c a (s.step c a i) r

/-- Addresses of the write bursts requested (`awvalid` and `awready`). -/
def writeBursts (c : CoreCfg) (a : Nat) : FullAxi → List FullIn → List Nat
  | _, [] => []
  | s, i :: r => (if s.wr.awvalid && i.awready then [s.agw.addr] else []) ++ writeBursts c a (s.step c a i) r

/-- Data beats transferred on the AXI write port (`wvalid` and `wready`). -/
def memBeats (c : CoreCfg) (a : Nat) : FullAxi → List FullIn → List Nat
  | _, [] => []
  | s, i :: r => (if s.wr.wvalid && i.wready then [HpFifo.data s.wfifo] else []) ++ memBeats c a (s.step c a i) r

/-- Words the core gives to the packer, with their end flags. -/
def coreWords (c : CoreCfg) (a : Nat) : FullAxi → List FullIn → List (Nat × Bool)
  | _, [] => []
  | s, i :: r => (if s.camOut.valid && !s.pack.oBusy then [(s.camOut.data, s.camOut.endd)] else []) ++
      coreWords c a (s.step c a i) r

/-- The four 12-bit pixels of a 64-bit beat: bits 32..43, 44..55, 0..11, 12..23. -/
def beatPixels (w : Nat) : List Nat := [w / 2 ^ 32 % 2 ^ 12, w / 2 ^ 44 % 2 ^ 12, w % 2 ^ 12, w / 2 ^ 12 % 2 ^ 12]

/-- An AXI read slave with `n` beats still owed: data are only valid when some are owed, `rlast` marks exactly the last
beat of each burst of 16 (and is low without `rvalid`), each accepted address adds 16 beats. Free delays and data. -/
def ReadSlave (c : CoreCfg) (a : Nat) : Nat → FullAxi → List FullIn → Prop
  | _, _, [] => True
  | n, s, i :: r => (i.rvalid = true → 0 < n) ∧ i.rlast = (i.rvalid && n % 16 == 1) ∧
      ReadSlave c a (n + (if s.rd.arvalid && i.arready then 16 else 0) - (if s.rd.rready && i.rvalid then 1 else 0)) (s.step c a i) r

/-- The write slave accepts a beat in the first cycle in which it is offered with `wlast`. -/
def WriteSlave (c : CoreCfg) (a : Nat) : FullAxi → List FullIn → Prop
  | _, [] => True
  | s, i :: r => (s.wr.wvalid = true → s.wr.wlast = true → i.wready = true) ∧ WriteSlave c a (s.step c a i) r

/-- Sizes of the FIFO memories. -/
structure Lens (s : FullAxi) : Prop where
  rf : s.rfifo.storage.length = 32
  wf : s.wfifo.storage.length = 32
  f64 : s.unpack.f64.storage.length = 2
  f32 : s.unpack.f32.storage.length = 4

/-- The state after power-up or after a reset cycle: everything cleared, any contents of the memories. -/
structure FullAfterReset (c : CoreCfg) (s : FullAxi) : Prop where
  cam : CamAfterReset c s.cam
  lens : Lens s
  clear : s = s.clear

/-- No cycle of the run is a reset cycle. -/
def NoReset (c : CoreCfg) (a : Nat) : FullAxi → List FullIn → Prop
  | _, [] => True
  | s, i :: r => s.cam.resetOut = false ∧ NoReset c a (s.step c a i) r

/-! ### The parts of the design -/

def rIn (s : FullAxi) (i : FullIn) : ReadSideIn :=
  ⟨s.enable, !s.agr.valid || s.readEnd i, i.arready, i.rvalid, i.rlast, i.rdata, !s.unpack.oBusy⟩
def uIn (s : FullAxi) (_ : FullIn) : WordIn := ⟨HpFifo.data s.rfifo, s.rfifo.readable, s.cam.nready⟩
def cIn (s : FullAxi) (_ : FullIn) : CamIn := s.camIn
def pIn (s : FullAxi) (_ : FullIn) : Pack64In := ⟨s.camOut.data, s.camOut.valid, s.camOut.endd, !s.wfifo.writable 32⟩
def wIn (s : FullAxi) (i : FullIn) : WriteSideIn :=
  ⟨s.enable, !s.agw.valid || s.writeEnd i, i.awready, i.wready, i.bvalid, s.pack.valid, s.pack.data, s.pack.endOut⟩
def aIn (s : FullAxi) (i : FullIn) : AddrIn := ⟨s.dma.readAddr, s.rd.addrEn i.arready⟩

def rSide (s : FullAxi) : ReadSide := ⟨s.rd, s.rfifo⟩
def wSide (s : FullAxi) : WriteSide := ⟨s.wr, s.wfifo⟩

section
variable {c : CoreCfg} {a : Nat}

theorem observe_append {α : Type} (f : FullAxi → FullIn → α) (x y : List FullIn) : ∀ s,
    observe c a f s (x ++ y) = observe c a f s x ++ observe c a f (fullRun c a s x) y := by
  induction x with
  | nil => intro s; rfl
  | cons i x ih => intro s; simp [observe, fullRun, ih]

theorem fullRun_append (x y : List FullIn) : ∀ s, fullRun c a s (x ++ y) = fullRun c a (fullRun c a s x) y := by
  induction x with
  | nil => intro s; rfl
  | cons i x ih => intro s; exact ih _

theorem step_run1 {s : FullAxi} (h : s.cam.resetOut = false) (i : FullIn) : s.step c a i = s.run1 c a i := by
  simp [FullAxi.step, h]

theorem step_cam (s : FullAxi) (i : FullIn) : (s.step c a i).cam = s.cam.betaStep c a s.camIn := by
  unfold FullAxi.step; split <;> rfl

theorem cam_run (ins : List FullIn) : ∀ s : FullAxi,
    (fullRun c a s ins).cam = camRun c a s.cam (observe c a cIn s ins) := by
  induction ins with
  | nil => intro s; rfl
  | cons i r ih => intro s; simp only [fullRun, observe, camRun]; rw [ih, step_cam]; rfl

theorem cam_words (ins : List FullIn) : ∀ s : FullAxi,
    coreWords c a s ins = camGiven c a s.cam (observe c a cIn s ins) := by
  induction ins with
  | nil => intro s; rfl
  | cons i r ih => intro s; simp only [coreWords, observe, camGiven]; rw [ih, step_cam]; rfl

theorem rSide_run (ins : List FullIn) : ∀ s : FullAxi, NoReset c a s ins →
    rSide (fullRun c a s ins) = ReadSide.run (rSide s) (observe c a rIn s ins) := by
  induction ins with
  | nil => intro s _; rfl
  | cons i r ih =>
    rintro s ⟨h, hr⟩
    simp only [fullRun, observe, ReadSide.run]
    rw [ih _ hr, step_run1 h]; rfl

theorem fa_unpack_run (ins : List FullIn) : ∀ s : FullAxi, NoReset c a s ins →
    (fullRun c a s ins).unpack = unpack64Run s.unpack (observe c a uIn s ins) := by
  induction ins with
  | nil => intro s _; rfl
  | cons i r ih =>
    rintro s ⟨h, hr⟩
    simp only [fullRun, observe, unpack64Run]
    rw [ih _ hr, step_run1 h]; rfl

theorem fa_pack_run (ins : List FullIn) : ∀ s : FullAxi, NoReset c a s ins →
    (fullRun c a s ins).pack = pack64Run s.pack (observe c a pIn s ins) := by
  induction ins with
  | nil => intro s _; rfl
  | cons i r ih =>
    rintro s ⟨h, hr⟩
    simp only [fullRun, observe, pack64Run]
    rw [ih _ hr, step_run1 h]; rfl

theorem wSide_run (ins : List FullIn) : ∀ s : FullAxi, NoReset c a s ins →
    wSide (fullRun c a s ins) = WriteSide.run (wSide s) (observe c a wIn s ins) := by
  induction ins with
  | nil => intro s _; rfl
  | cons i r ih =>
    rintro s ⟨h, hr⟩
    simp only [fullRun, observe, WriteSide.run]
    rw [ih _ hr, step_run1 h]; rfl

theorem agr_run (ins : List FullIn) : ∀ s : FullAxi, NoReset c a s ins →
    (fullRun c a s ins).agr = addrRun 0x80 s.agr (observe c a aIn s ins) := by
  induction ins with
  | nil => intro s _; rfl
  | cons i r ih =>
    rintro s ⟨h, hr⟩
    simp only [fullRun, observe, addrRun]
    rw [ih _ hr, step_run1 h]; rfl

/-- From a state outside reset, a run without end-flagged word has no reset cycle, and neither has one more cycle. -/
theorem noReset_of (ins : List FullIn) : ∀ {s : FullAxi}, s.cam.resetOut = false → (∀ x ∈ coreWords c a s ins, x.2 = false) →
    NoReset c a s ins ∧ (fullRun c a s ins).cam.resetOut = false := by
  induction ins with
  | nil => intro s h _; exact ⟨trivial, h⟩
  | cons i r ih =>
    intro s h hno
    have h1 : (s.step c a i).cam.resetOut = false := by
      rw [step_cam]
      cases hb : (s.cam.betaStep c a s.camIn).resetOut with
      | false => rfl
      | true =>
        obtain ⟨_, h2, h3, h4⟩ := (C28_reset_pulse c a s.cam s.camIn).1 hb
        have := hno (s.camOut.data, s.camOut.endd) (by
          have hc : (s.camOut.valid && !s.pack.oBusy) = true := by
            rw [Bool.and_eq_true]; exact ⟨h2, by rw [show s.pack.oBusy = false from h3]; rfl⟩
          simp only [coreWords, hc, if_true, List.mem_append]
          exact Or.inl (List.mem_singleton.2 rfl))
        rw [show s.camOut.endd = true from h4] at this
        cases this
    obtain ⟨h2, h3⟩ := ih h1 (fun x hx => hno x (by simp only [coreWords, List.mem_append]; exact Or.inr hx))
    exact ⟨⟨h, h2⟩, h3⟩

theorem noReset_append (x y : List FullIn) : ∀ {s : FullAxi}, NoReset c a s x → NoReset c a (fullRun c a s x) y →
    NoReset c a s (x ++ y) := by
  induction x with
  | nil => intro s _ h; exact h
  | cons i r ih => rintro s ⟨h1, h2⟩ h3; exact ⟨h1, ih h2 h3⟩

theorem afterReset_resetOut {s : FullAxi} (hs : FullAfterReset c s) : s.cam.resetOut = false := by
  obtain ⟨m, _, e⟩ := hs.cam
  rw [e]; rfl

end

/-! ### Read path -/

section
variable {c : CoreCfg} {a : Nat}

theorem readBeats_obs (ins : List FullIn) : ∀ s : FullAxi, NoReset c a s ins →
    readBeats c a s ins = ReadSide.beats (rSide s) (observe c a rIn s ins) := by
  induction ins with
  | nil => intro s _; rfl
  | cons i r ih =>
    rintro s ⟨h, hr⟩
    simp only [readBeats, observe, ReadSide.beats]
    rw [ih _ hr, step_run1 h]; rfl

theorem slave_obs (ins : List FullIn) : ∀ (n : Nat) (s : FullAxi), NoReset c a s ins → ReadSlave c a n s ins →
    ReadSide.SlaveOk n (rSide s) (observe c a rIn s ins) := by
  induction ins with
  | nil => intro n s _ _; trivial
  | cons i r ih =>
    rintro n s ⟨h, hr⟩ ⟨h1, h2, h3⟩
    have := ih _ _ hr h3
    refine ⟨h1, h2, ?_⟩
    rw [step_run1 h] at this ⊢; exact this

theorem popped_obs (ins : List FullIn) : ∀ s : FullAxi, NoReset c a s ins →
    ReadSide.popped (rSide s) (observe c a rIn s ins) = unpack64Taken s.unpack (observe c a uIn s ins) := by
  induction ins with
  | nil => intro s _; rfl
  | cons i r ih =>
    rintro s ⟨h, hr⟩
    simp only [observe, ReadSide.popped, unpack64Taken]
    have := ih _ hr
    rw [step_run1 h] at this ⊢
    exact congrArg _ this

/-- The two pixels of a 32-bit word in the full-AXI wiring. -/
def pix2L (d : Nat) : List Nat := [slice d 0 12, slice d 12 24]

theorem accepted_obs (ins : List FullIn) : ∀ s : FullAxi, NoReset c a s ins →
    camAccepted c a s.cam (observe c a cIn s ins) = (unpack64Given s.unpack (observe c a uIn s ins)).flatMap pix2L := by
  induction ins with
  | nil => intro s _; rfl
  | cons i r ih =>
    rintro s ⟨h, hr⟩
    simp only [observe, camAccepted, unpack64Given, List.flatMap_append]
    have := ih _ hr
    rw [step_cam] at this
    rw [show cIn s i = s.camIn from rfl, this, step_run1 h]
    congr 1
    by_cases hv : (s.unpack.valid && !s.cam.nready) = true <;>
      simp [FullAxi.camIn, uIn, hv, pix2L]

theorem beatPixels_eq (w : Nat) : (halves64 w).flatMap pix2L = beatPixels w := by
  simp only [halves64, pix2L, beatPixels, List.flatMap_cons, List.flatMap_nil, slice, List.append_nil, List.cons_append, List.nil_append]
  congr 1
  · omega
  · congr 1
    · omega
    · congr 1
      · omega
      · congr 1
        omega

theorem syncReset_contents (d : Nat) (m : List Nat) (x : Nat) : (SyncFifo.reset m x).contents d = [] := rfl

/-- The unpacker after the first cycle from a reset, in which its FIFO shows nothing. -/
theorem unpack_first {s : FullAxi} (hl : Lens s) (hc : s = s.clear) (d : Nat) (b : Bool) :
    Unpack64Inv (s.unpack.step d false b) ∧ unpack64Pend (s.unpack.step d false b) = [] ∧ s.unpack.valid = false ∧
    s.rfifo.readable = false := by
  have h1 := SyncFifo.inv_reset s.unpack.f64.storage s.unpack.f64.dout (depth := 2) (by decide) hl.f64
  have h2 := SyncFifo.inv_reset s.unpack.f32.storage s.unpack.f32.dout (depth := 4) (by decide) hl.f32
  have e : s.unpack = s.unpack.cleared := congrArg FullAxi.unpack hc
  have er : s.rfifo = .reset s.rfifo.storage s.rfifo.dout := congrArg FullAxi.rfifo hc
  have c1 := SyncFifo.contents_step h1 false s.unpack.din64 false
  have c2 := SyncFifo.contents_step h2 false s.unpack.din32 (!b)
  refine ⟨?_, ?_, by rw [e]; rfl, by rw [er]; rfl⟩
  · rw [e]
    exact ⟨SyncFifo.inv_step h1 _ _ _, SyncFifo.inv_step h2 _ _ _, by simp [Unpack.cleared, Unpack.step, Unpack.stepOut, Unpack.stepIn, Unpack.init, SyncFifo.readable, SyncFifo.reset, SyncFifo.writable],
     by simp [Unpack.cleared, Unpack.step, Unpack.stepOut, Unpack.stepIn, Unpack.init, SyncFifo.readable, SyncFifo.reset, SyncFifo.writable],
     by simp [Unpack.cleared, Unpack.step, Unpack.stepOut, Unpack.stepIn, Unpack.init, SyncFifo.readable, SyncFifo.reset, SyncFifo.writable],
     by simp [Unpack.cleared, Unpack.step, Unpack.stepOut, Unpack.stepIn, Unpack.init, SyncFifo.readable, SyncFifo.reset, SyncFifo.writable]⟩
  · rw [e]
    rw [syncReset_contents] at c1 c2
    simp only [unpack64Pend, unpack64Words]
    have e1 : s.unpack.cleared.step d false b =
      { Unpack.init with fsm := .fill, f64 := (SyncFifo.reset s.unpack.f64.storage s.unpack.f64.dout).step 2 false s.unpack.din64 false,
                         f32 := (SyncFifo.reset s.unpack.f32.storage s.unpack.f32.dout).step 4 false s.unpack.din32 (!b),
                         din64 := s.unpack.din64, din32 := s.unpack.din32 } := by
      simp [Unpack.cleared, Unpack.step, Unpack.stepOut, Unpack.stepIn, Unpack.init, SyncFifo.readable, SyncFifo.reset, SyncFifo.writable]
    rw [e1]
    simp only [c1, c2]
    simp [Unpack.init]

theorem fa_read {s : FullAxi} (hs : FullAfterReset c s) (ins : List FullIn) (hnr : NoReset c a s ins)
    (hsl : ReadSlave c a 0 s ins) (hd : ∀ i ∈ ins, i.rdata < 2 ^ 64) :
    camAccepted c a s.cam (observe c a cIn s ins) <+: (readBeats c a s ins).flatMap beatPixels := by
  have hq : (rSide s).queue = [] := by
    have er : s.rfifo = .reset s.rfifo.storage s.rfifo.dout := congrArg FullAxi.rfifo hs.clear
    simp only [rSide, ReadSide.queue]; rw [er, syncReset_contents]; rfl
  have hi : ReadSide.Inv 0 (rSide s) := by
    have er : s.rfifo = .reset s.rfifo.storage s.rfifo.dout := congrArg FullAxi.rfifo hs.clear
    have ed : s.rd = .init := congrArg FullAxi.rd hs.clear
    simp only [rSide]
    rw [er, ed]
    exact ⟨SyncFifo.inv_reset _ _ (by decide) hs.lens.rf, rfl, by simp [HpReader.init], by simp [HpReader.init], fun _ => rfl, by simp [HpReader.init], by simp [SyncFifo.reset]⟩
  obtain ⟨_, _, hp, _⟩ := ReadSide.run_inv _ 0 _ hi (slave_obs ins 0 s hnr hsl) (by
    have : ∀ (ins : List FullIn) (s : FullAxi), (∀ i ∈ ins, i.rdata < 2 ^ 64) → ∀ j ∈ observe c a rIn s ins, j.rdata < 2 ^ 64 := by
      intro ins
      induction ins with
      | nil => intro s _ j hj; cases hj
      | cons i r ih =>
        intro s h j hj
        simp only [observe, List.mem_cons] at hj
        rcases hj with rfl | hj
        · exact h i (List.mem_cons_self ..)
        · exact ih _ (fun k hk => h k (List.mem_cons_of_mem _ hk)) j hj
    exact this ins s hd)
  rw [hq, List.nil_append, popped_obs ins s hnr, ← readBeats_obs ins s hnr] at hp
  rw [accepted_obs ins s hnr]
  have h2 : unpack64Given s.unpack (observe c a uIn s ins) <+: (unpack64Taken s.unpack (observe c a uIn s ins)).flatMap halves64 := by
    cases ins with
    | nil => exact List.prefix_refl _
    | cons i r =>
      obtain ⟨f1, f2, f3, f4⟩ := unpack_first hs.lens hs.clear (HpFifo.data s.rfifo) s.cam.nready
      simp only [observe, unpack64Given, unpack64Taken]
      have e : uIn s i = ⟨HpFifo.data s.rfifo, false, s.cam.nready⟩ := by rw [uIn, f4]
      rw [e]
      simp only [f3, Bool.false_and, Bool.false_eq_true, if_false, List.nil_append]
      obtain ⟨_, h⟩ := unpack64_run (observe c a uIn (s.step c a i) r) f1
      rw [f2, List.nil_append] at h
      exact ⟨_, h⟩
  have h3 : unpack64Taken s.unpack (observe c a uIn s ins) <+: readBeats c a s ins := ⟨_, hp⟩
  have h4 := flatMap_prefix pix2L (h2.trans (flatMap_prefix halves64 h3))
  rw [List.flatMap_assoc] at h4
  simpa only [beatPixels_eq] using h4

end

/-! ### The words of the core have 16 bits -/

def Fix16 (f : Fix2) : Prop := f.data < 2 ^ 16 ∧ f.regData < 2 ^ 16

theorem slice_lt (n lo hi : Nat) : slice n lo hi < 2 ^ (hi - lo) := Nat.mod_lt _ (by exact Nat.two_pow_pos _)

theorem fix16_normal {s r : Fix2} (h : Fix16 r) (p : Packet) (v t : Bool) : Fix16 (s.normalLogic r p v t) := by
  obtain ⟨h1, h2⟩ := h
  have a1 := slice_lt p.data 0 16
  have a2 := slice_lt p.data 8 24
  have a3 := slice_lt p.data 16 32
  have a4 := slice_lt p.data 8 16
  have a5 := slice_lt p.data 16 24
  have a6 := slice_lt p.data 24 32
  have a7 := slice_lt s.buffer 0 8
  have b1 : slice p.data 8 16 + 2 ^ 8 * slice s.buffer 0 8 < 2 ^ 16 := by omega
  have b2 : slice p.data 16 24 + 2 ^ 8 * slice s.buffer 0 8 < 2 ^ 16 := by omega
  have b3 : slice p.data 24 32 + 2 ^ 8 * slice s.buffer 0 8 < 2 ^ 16 := by omega
  unfold Fix16 Fix2.normalLogic
  dsimp only
  cases t <;> simp only [Bool.false_eq_true, if_false, if_true] <;> (repeat' split) <;> exact ⟨by assumption, by assumption⟩

theorem fix16_step {s : Fix2} (h : Fix16 s) (p : Packet) (v b : Bool) : Fix16 (s.step p v b) := by
  have h1 := h.1
  have h2 := h.2
  unfold Fix2.step
  split
  · unfold Fix2.stepNormal
    have key : ∀ r : Fix2, Fix16 r → Fix16 (if (!s.oBusy) = true then s.normalLogic r p v true else r) := by
      intro r hr; split
      · exact fix16_normal hr _ _ _
      · exact hr
    apply key
    split
    · split
      · exact fix16_normal (r := { s with valid := v }) h p v false
      · exact ⟨h2, h2⟩
    · split
      · exact fix16_normal (r := { s with valid := v, oBusy := false, regValid := false }) h p v false
      · split <;> exact h
  · have a7 := slice_lt s.buffer 0 8
    have a1 := slice_lt s.buffer 0 16
    have a2 := slice_lt s.buffer 8 24
    have a3 : 0 + 2 ^ 8 * slice s.buffer 0 8 < 2 ^ 16 := by omega
    unfold Fix2.stepClean Fix2.cleanLogic Fix16
    dsimp only
    (repeat' split) <;> first | exact h | exact ⟨by assumption, by assumption⟩
  · unfold Fix2.stepPreEnd
    (repeat' split) <;> first | exact h | exact ⟨h2, h2⟩
  · exact h

section
variable {c : CoreCfg} {a : Nat}

theorem cam16_step {s : Cam} (h : Fix16 s.fix2) (i : CamIn) : Fix16 (s.betaStep c a i).fix2 := by
  unfold Cam.betaStep
  split
  · exact ⟨by simp [Cam.reset, Fix2.init], by simp [Cam.reset, Fix2.init]⟩
  · exact fix16_step h _ _ _

theorem cam16_out {s : Cam} (h : Fix16 s.fix2) (b : Bool) : (s.out b).data < 2 ^ 16 := by
  have h1 := h.1
  unfold Cam.out Markers.out
  split <;> (repeat' split) <;> first | exact h1 | simp

theorem pIn16 (ins : List FullIn) : ∀ s : FullAxi, Fix16 s.cam.fix2 → ∀ j ∈ observe c a pIn s ins, j.data < 2 ^ 16 := by
  induction ins with
  | nil => intro s _ j hj; cases hj
  | cons i r ih =>
    intro s h j hj
    simp only [observe, List.mem_cons] at hj
    rcases hj with rfl | hj
    · exact cam16_out h _
    · exact ih _ (by rw [step_cam]; exact cam16_step h _) j hj

/-! ### Write path -/

theorem memBeats_obs (ins : List FullIn) (r : FullIn) : ∀ s : FullAxi, NoReset c a s ins →
    memBeats c a s (ins ++ [r]) = (WriteSide.beats (wSide s)
      (observe c a wIn s ins ++ [{ wIn (fullRun c a s ins) r with push := false }])).map Prod.fst := by
  induction ins with
  | nil =>
    intro s _
    simp only [List.nil_append, memBeats, observe, WriteSide.beats, fullRun, List.append_nil]
    by_cases h : (s.wr.wvalid && r.wready) = true <;> simp [h, wSide, wIn]
  | cons i l ih =>
    rintro s ⟨h, hr⟩
    simp only [List.cons_append, memBeats, observe, WriteSide.beats, List.map_append, fullRun]
    rw [ih _ hr, step_run1 h]
    congr 1
    by_cases h : (s.wr.wvalid && i.wready) = true <;> simp [h, wSide, wIn]

theorem pushed_append (x y : List WriteSideIn) : ∀ s : WriteSide,
    WriteSide.pushed s (x ++ y) = WriteSide.pushed s x ++ WriteSide.pushed (WriteSide.run s x) y := by
  induction x with
  | nil => intro s; rfl
  | cons i x ih => intro s; simp [WriteSide.pushed, WriteSide.run, ih]

theorem pushed_obs (ins : List FullIn) : ∀ s : FullAxi, NoReset c a s ins →
    WriteSide.pushed (wSide s) (observe c a wIn s ins) = pack64Given s.pack (observe c a pIn s ins) := by
  induction ins with
  | nil => intro s _; rfl
  | cons i r ih =>
    rintro s ⟨h, hr⟩
    simp only [observe, WriteSide.pushed, pack64Given]
    have := ih _ hr
    rw [step_run1 h] at this ⊢
    refine congr (congrArg _ ?_) this
    by_cases h1 : s.wfifo.writable 32 = true <;> by_cases h2 : s.pack.valid = true <;> simp [wSide, wIn, pIn, h1, h2]

theorem taken_obs (ins : List FullIn) : ∀ s : FullAxi, NoReset c a s ins →
    pack64Taken s.pack (observe c a pIn s ins) = (coreWords c a s ins).map Prod.fst := by
  induction ins with
  | nil => intro s _; rfl
  | cons i r ih =>
    rintro s ⟨h, hr⟩
    simp only [observe, pack64Taken, coreWords, List.map_append]
    have := ih _ hr
    rw [step_run1 h] at this ⊢
    refine congr (congrArg _ ?_) this
    by_cases h : (s.camOut.valid && !s.pack.oBusy) = true <;> simp [h, pIn]

theorem given_append (x y : List Pack64In) : ∀ s : Pack64,
    pack64Given s (x ++ y) = pack64Given s x ++ pack64Given (pack64Run s x) y := by
  induction x with
  | nil => intro s; rfl
  | cons i x ih => intro s; simp [pack64Given, pack64Run, ih]

theorem taken_append (x y : List Pack64In) : ∀ s : Pack64,
    pack64Taken s (x ++ y) = pack64Taken s x ++ pack64Taken (pack64Run s x) y := by
  induction x with
  | nil => intro s; rfl
  | cons i x ih => intro s; simp [pack64Taken, pack64Run, ih]

theorem lastTaken_append (x y : List WriteSideIn) : ∀ s : WriteSide,
    WriteSide.LastTaken s x → WriteSide.LastTaken (WriteSide.run s x) y → WriteSide.LastTaken s (x ++ y) := by
  induction x with
  | nil => intro s _ h; exact h
  | cons i x ih => rintro s ⟨h1, h2⟩ h3; exact ⟨h1, ih _ h2 h3⟩

theorem writeSlave_obs (ins : List FullIn) (r : FullIn) : ∀ s : FullAxi, NoReset c a s ins → WriteSlave c a s (ins ++ [r]) →
    WriteSide.LastTaken (wSide s) (observe c a wIn s ins ++ [{ wIn (fullRun c a s ins) r with push := false }]) := by
  induction ins with
  | nil => intro s _ h; exact ⟨h.1, trivial⟩
  | cons i l ih =>
    rintro s ⟨h, hr⟩ ⟨h1, h2⟩
    have := ih _ hr h2
    refine ⟨h1, ?_⟩
    simp only [fullRun]
    rw [step_run1 h] at this ⊢
    exact this

def P64 (p : Pack64) : Prop := p.buffer1 < 2 ^ 64 ∧ p.buffer2 < 2 ^ 64 ∧ p.data < 2 ^ 64

theorem p64_step {p : Pack64} (h : P64 p) {d : Nat} (hd : d < 2 ^ 16) (v e b : Bool) : P64 (p.step d v e b) := by
  obtain ⟨h1, h2, h3⟩ := h
  obtain ⟨a1, a2, a3, a4⟩ := setSlice_lt h1 hd
  obtain ⟨b1, b2, b3, b4⟩ := setSlice_lt h2 hd
  have h4 : (if p.chs = true then p.buffer2 else p.buffer1) < 2 ^ 64 := by split <;> assumption
  have hr : P64 (p.stepOut (p.stepEnd v e b) b) := by
    unfold Pack64.stepOut
    dsimp only
    (repeat' split) <;> exact ⟨h1, h2, by assumption⟩
  obtain ⟨r1, r2, r3⟩ := hr
  unfold Pack64.step
  dsimp only
  split
  · unfold Pack64.stepFsm2
    (repeat' split) <;> exact ⟨r1, by assumption, r3⟩
  · unfold Pack64.stepFsm1
    (repeat' split) <;> exact ⟨by assumption, r2, r3⟩

theorem wIn64 (ins : List FullIn) : ∀ s : FullAxi, NoReset c a s ins → Fix16 s.cam.fix2 → P64 s.pack →
    (∀ j ∈ observe c a wIn s ins, j.word < 2 ^ 64) ∧ P64 (fullRun c a s ins).pack := by
  induction ins with
  | nil => intro s _ _ h; exact ⟨fun j hj => (by cases hj), h⟩
  | cons i r ih =>
    rintro s ⟨h, hr⟩ h16 hp
    obtain ⟨h1, h2⟩ := ih _ hr (by rw [step_cam]; exact cam16_step h16 _) (by
      rw [step_run1 h]; exact p64_step hp (cam16_out h16 _) _ _ _)
    refine ⟨?_, h2⟩
    intro j hj
    simp only [observe, List.mem_cons] at hj
    rcases hj with rfl | hj
    · exact hp.2.2
    · exact h1 j hj

theorem afterReset_pack {s : FullAxi} (hs : FullAfterReset c s) :
    s.pack = .init ∧ Fix16 s.cam.fix2 ∧ P64 s.pack ∧ ∀ b, (s.cam.out b).valid = false := by
  have e : s.pack = .init := congrArg FullAxi.pack hs.clear
  obtain ⟨m, _, ec⟩ := hs.cam
  refine ⟨e, ?_, ?_, ?_⟩
  · rw [ec]; exact ⟨by simp [Cam.reset, Fix2.init], by simp [Cam.reset, Fix2.init]⟩
  · rw [e]; exact ⟨by decide, by decide, by decide⟩
  · intro b; rw [ec]; rfl

/-- Words that have reached the packer's output by one cycle after `ins`. -/
theorem given_ahead {s : FullAxi} (hs : FullAfterReset c s) (ins : List FullIn) (i : FullIn) (hnr : NoReset c a s ins) :
    pack64Given s.pack (observe c a pIn s (ins ++ [i])) <+: groups4 ((coreWords c a s ins).map Prod.fst) := by
  obtain ⟨e1, e2, e3, e4⟩ := afterReset_pack hs
  have e5 : pack64Given s.pack (observe c a pIn s (ins ++ [i])) =
      pack64Given s.pack (observe c a pIn s ins ++ [{ pIn (fullRun c a s ins) i with valid := false }]) := by
    rw [observe_append, given_append, given_append]; rfl
  rw [e5, ← taken_obs ins s hnr]
  cases ins with
  | nil =>
    simp only [observe, List.nil_append, pack64Given, fullRun]
    rw [e1]
    exact List.prefix_refl _
  | cons j r =>
    have hv : (pIn s j).valid = false := e4 _
    simp only [observe, List.cons_append, pack64Given, pack64Taken, hv, Bool.false_and, Bool.false_eq_true, if_false, List.nil_append]
    rw [e1]
    rw [show Pack64.init.valid = false from rfl]
    simp only [Bool.false_and, Bool.false_eq_true, if_false, List.nil_append]
    obtain ⟨h1, h2⟩ := pack64_first (pIn s j)
    obtain ⟨p, _, h⟩ := pack64_run (observe c a pIn (s.step c a j) r ++ [{ pIn (fullRun c a s (j :: r)) i with valid := false }]) (by
      intro k hk
      rcases List.mem_append.1 hk with hk | hk
      · exact pIn16 r _ (by rw [step_cam]; exact cam16_step e2 _) k hk
      · rw [List.mem_singleton.1 hk]
        have : Fix16 (fullRun c a s (j :: r)).cam.fix2 := by
          rw [cam_run]
          generalize observe c a cIn s (j :: r) = l
          clear h1 h2 e3 e5 hv e4
          generalize s.cam = x at *
          induction l generalizing x with
          | nil => exact e2
          | cons y l ih => exact ih _ (cam16_step e2 _)
        exact cam16_out this _) h1
    rw [h2, List.nil_append, List.nil_append, taken_append] at h
    simp only [pack64Taken, Bool.false_and, Bool.false_eq_true, if_false, List.append_nil] at h
    exact ⟨_, h⟩

/-! ### The theorems -/

theorem cIn_wf (hps : c.int1.ps = 2) (hbd : c.int1.bd = 12) (ins : List FullIn) : ∀ s, CamWf c (observe c a cIn s ins) := by
  induction ins with
  | nil => intro s j hj; cases hj
  | cons i r ih =>
    intro s j hj
    simp only [observe, List.mem_cons] at hj
    rcases hj with rfl | hj
    · intro _
      rw [hps, hbd]
      refine ⟨rfl, ?_⟩
      intro x hx
      simp only [cIn, FullAxi.camIn, List.mem_cons, List.not_mem_nil, or_false] at hx
      rcases hx with rfl | rfl <;> exact Nat.mod_lt _ (by decide)
    · exact ih _ j hj

/-- C54: from any reset on, for any schedule of the memory and of the bus: when the core gives the word with the end flag and
the marker FFFF, the memory has delivered at least the pixels of one frame, and the words the core has given decode
to exactly the first `W*H` pixels of the beats read since the reset, in memory order. -/
theorem C54_frame_from_memory {T : Table} (h : CamSetup c T) (hps : c.int1.ps = 2) (hbd : c.int1.bd = 12)
    {s : FullAxi} (hs : FullAfterReset c s) (ins : List FullIn) (i : FullIn) (hsl : ReadSlave c a 0 s (ins ++ [i]))
    (hd : ∀ j ∈ ins ++ [i], j.rdata < 2 ^ 64) (hno : ∀ x ∈ coreWords c a s ins, x.2 = false)
    (hw : (0xFFFF, true) ∈ coreWords c a s (ins ++ [i])) :
    let words := coreWords c a s (ins ++ [i])
    let pixels := (readBeats c a s (ins ++ [i])).flatMap beatPixels
    c.int1.W * c.int1.H ≤ pixels.length ∧
    ∃ pad, decode T 13 12 c.int1.W (c.int1.W * c.int1.H) []
      (byteBits (unstuff (wordBytes ((words.drop 8).take (words.length - 16))))) =
        some (pixels.take (c.int1.W * c.int1.H), pad) := by
  intro words pixels
  obtain ⟨n1, n2⟩ := noReset_of ins (afterReset_resetOut hs) hno
  have hnr := noReset_append ins [i] n1 ⟨n2, trivial⟩
  obtain ⟨rest, hp⟩ := fa_read hs (ins ++ [i]) hnr hsl hd
  have e := observe_append (c := c) (a := a) cIn ins [i] s
  have hwf := cIn_wf (a := a) hps hbd (ins ++ [i]) s
  rw [cam_words] at hw hno
  have e1 : words = camGiven c a s.cam (observe c a cIn s (ins ++ [i])) := cam_words _ _
  rw [e] at hw hwf e1 hp
  obtain ⟨pad, hdec⟩ := C30_image_recovered h (by omega) a hs.cam _ _ hwf hno hw
  obtain ⟨body, _, _, hb⟩ := C30_frame h a hs.cam _ _ hwf hno 0xFFFF hw
  have hlen : (camAccepted c a s.cam (observe c a cIn s ins ++ [cIn (fullRun c a s ins) i])).length = c.int1.W * c.int1.H := by
    rcases hb with ⟨_, hl, _⟩ | ⟨hx, _⟩
    · exact hl
    · simp at hx
  have hp' : camAccepted c a s.cam (observe c a cIn s ins ++ [cIn (fullRun c a s ins) i]) ++ rest = pixels := hp
  have htake : pixels.take (c.int1.W * c.int1.H) = camAccepted c a s.cam (observe c a cIn s ins ++ [cIn (fullRun c a s ins) i]) := by
    rw [← hp', ← hlen, List.take_left]
  refine ⟨by rw [← hp', List.length_append, hlen]; omega, pad, ?_⟩
  rw [htake, e1]
  rw [hbd] at hdec
  exact hdec

theorem wSide_inv0 {s : FullAxi} (hs : FullAfterReset c s) : WriteSide.Inv 0 0 (wSide s) ∧ (wSide s).queue = [] := by
  have er : s.wfifo = .reset s.wfifo.storage s.wfifo.dout := congrArg FullAxi.wfifo hs.clear
  have ed : s.wr = .init := congrArg FullAxi.wr hs.clear
  constructor
  · simp only [wSide]
    rw [er, ed]
    exact ⟨SyncFifo.inv_reset _ _ (by decide) hs.lens.wf, by simp [WriteSide.Count, HpWriter.init], by simp,
      by simp [HpWriter.init], rfl, by simp [HpWriter.init], by simp [HpWriter.init]⟩
  · simp only [wSide, WriteSide.queue]; rw [er, syncReset_contents]; rfl

/-- Words that reached the FIFO of the writer by the reset cycle after `ins ++ [i]`. -/
theorem pushed_frame {s : FullAxi} (hs : FullAfterReset c s) (ins : List FullIn) (i r : FullIn)
    (hno : ∀ x ∈ coreWords c a s ins, x.2 = false) :
    NoReset c a s (ins ++ [i]) ∧
    WriteSide.pushed (wSide s) (observe c a wIn s (ins ++ [i]) ++ [{ wIn (fullRun c a s (ins ++ [i])) r with push := false }]) <+:
      groups4 ((coreWords c a s ins).map Prod.fst) := by
  obtain ⟨n1, n2⟩ := noReset_of ins (afterReset_resetOut hs) hno
  have hnr := noReset_append ins [i] n1 ⟨n2, trivial⟩
  refine ⟨hnr, ?_⟩
  have e : ∀ (x : WriteSide) (y : WriteSideIn), WriteSide.pushed x [{ y with push := false }] = [] := by
    intro x y; simp [WriteSide.pushed]
  rw [pushed_append, e, List.append_nil, pushed_obs _ _ hnr]
  exact given_ahead hs ins i n1

/-- C54 (limit of the code): the frame's last word never reaches the memory. `ins` are the cycles before the one (`i`) in which
the core gives the word with the end flag, `r` is the reset cycle after it. Everything written to memory up to and
including the reset cycle comes from the words given in `ins`, four to a beat — with one beat, number 16, that may be
an additional one; after the reset the writer is empty. So at least the end-flagged word, and everything that
was still in packer and FIFO, is lost. -/
theorem C54_memory_prefix {s : FullAxi} (hs : FullAfterReset c s) (ins : List FullIn) (i r : FullIn)
    (hsl : WriteSlave c a s (ins ++ [i] ++ [r])) (hno : ∀ x ∈ coreWords c a s ins, x.2 = false) :
    let mem := memBeats c a s (ins ++ [i] ++ [r])
    let words := groups4 ((coreWords c a s ins).map Prod.fst)
    mem <+: words ∨ (16 < mem.length ∧ mem.eraseIdx 16 <+: words) := by
  intro mem words
  obtain ⟨hnr, hpu⟩ := pushed_frame hs ins i r hno
  obtain ⟨e1, e2, e3, e4⟩ := afterReset_pack hs
  obtain ⟨k1, k2⟩ := wIn64 (ins ++ [i]) s hnr e2 e3
  obtain ⟨w1, w2⟩ := wSide_inv0 hs
  obtain ⟨_, hq⟩ := WriteSide.run_inv _ 0 0 _ w1 (writeSlave_obs (ins ++ [i]) r s hnr hsl) (by
    intro j hj
    rcases List.mem_append.1 hj with hj | hj
    · exact k1 j hj
    · rw [List.mem_singleton.1 hj]; exact k2.2.2)
  rw [w2, List.nil_append, ← memBeats_obs (ins ++ [i]) r s hnr] at hq
  rcases hq with hq | ⟨_, h2, hq⟩
  · exact .inl (List.IsPrefix.trans ⟨_, hq⟩ hpu)
  · refine .inr ⟨?_, List.IsPrefix.trans ⟨_, hq⟩ hpu⟩
    have := congrArg List.length (memBeats_obs (c := c) (a := a) (ins ++ [i]) r s hnr)
    rw [List.length_map] at this
    show 16 < (memBeats c a s (ins ++ [i] ++ [r])).length
    omega

/-- No write beat is sent before the FIFO has received 16 words. -/
theorem beats_need16 : ∀ (is : List WriteSideIn) (n : Nat) (s : WriteSide), s.fifo.level ≤ n →
    (s.wr.wvalid = true → 16 ≤ n) → n + (WriteSide.pushed s is).length < 16 → WriteSide.beats s is = []
  | [], _, _, _, _, _ => rfl
  | i :: r, n, s, h1, h2, h3 => by
    simp only [WriteSide.pushed, List.length_append] at h3
    have hv : s.wr.wvalid = false := by
      cases h : s.wr.wvalid with
      | false => rfl
      | true => have := h2 h; omega
    simp only [WriteSide.beats, hv, Bool.false_and, Bool.false_eq_true, if_false, List.nil_append]
    refine beats_need16 r (n + (if (s.fifo.writable 32 && i.push) = true then [i.word] else []).length) (s.step i) ?_ ?_ ?_
    · show (SyncFifo.step 32 s.fifo _ _ _).level ≤ _
      simp only [SyncFifo.step]
      by_cases hp : (s.fifo.writable 32 && i.push) = true
      · simp only [hp, if_true, List.length_singleton]
        repeat' split
        all_goals omega
      · simp only [hp, Bool.false_eq_true, if_false, List.length_nil, Bool.false_and]
        repeat' split
        all_goals (try omega)
        all_goals (rename_i x; simp_all)
    · intro hw
      have : HpFifo.readable16 s.fifo = true := by
        simp only [WriteSide.step, HpWriter.step, hv] at hw
        revert hw
        cases HpFifo.readable16 s.fifo <;> simp
      simp only [HpFifo.readable16, decide_eq_true_eq] at this
      omega
    · omega

theorem groups4_length : ∀ l : List Nat, (groups4 l).length = l.length / 4
  | [] => rfl
  | [_] => by simp [groups4]
  | [_, _] => by simp [groups4]
  | [_, _, _] => by simp [groups4]
  | a :: b :: c :: d :: r => by
    simp only [groups4, List.length_cons, groups4_length r]; omega

/-- C54 (limit of the code): of a frame with at most 64 words — markers included — nothing is written to memory, whatever
the memory does. -/
theorem C54_short_frame_lost {s : FullAxi} (hs : FullAfterReset c s) (ins : List FullIn) (i r : FullIn)
    (hno : ∀ x ∈ coreWords c a s ins, x.2 = false) (hshort : (coreWords c a s ins).length < 64) :
    memBeats c a s (ins ++ [i] ++ [r]) = [] := by
  obtain ⟨hnr, hpu⟩ := pushed_frame hs ins i r hno
  have er : s.wfifo = .reset s.wfifo.storage s.wfifo.dout := congrArg FullAxi.wfifo hs.clear
  have ed : s.wr = .init := congrArg FullAxi.wr hs.clear
  rw [memBeats_obs _ _ _ hnr, beats_need16 _ 0 (wSide s) (by simp only [wSide]; rw [er]; exact Nat.le_refl 0)
    (by simp only [wSide]; rw [ed]; simp [HpWriter.init]) ?_, List.map_nil]
  have := hpu.length_le
  rw [groups4_length, List.length_map] at this
  omega

theorem sync_len (f : SyncFifo) (d : Nat) (we : Bool) (x : Nat) (re : Bool) : (f.step d we x re).storage.length = f.storage.length := by
  simp only [SyncFifo.step]
  repeat' split
  all_goals simp

theorem lens_step {s : FullAxi} (h : Lens s) (i : FullIn) : Lens (s.step c a i) := by
  obtain ⟨h1, h2, h3, h4⟩ := h
  have k1 : (s.run1 c a i).rfifo.storage.length = 32 := by rw [← h1]; exact sync_len ..
  have k2 : (s.run1 c a i).wfifo.storage.length = 32 := by rw [← h2]; exact sync_len ..
  have k3 : (s.run1 c a i).unpack.f64.storage.length = 2 := by
    rw [← h3]; exact sync_len ..
  have k4 : (s.run1 c a i).unpack.f32.storage.length = 4 := by
    rw [← h4]; exact sync_len ..
  unfold FullAxi.step
  split
  · exact ⟨k1, k2, k3, k4⟩
  · exact ⟨k1, k2, k3, k4⟩

/-- C54: power-up, and every state after a reset cycle in any run from power-up, is a reset state in the sense of the theorems
above. -/
theorem C54_every_reset {T : Table} (h : CamSetup c T) (hps : c.int1.ps = 2) (hbd : c.int1.bd = 12) :
    FullAfterReset c (.init c) ∧
    ∀ (ins : List FullIn) (r : FullIn), (fullRun c a (.init c) ins).cam.resetOut = true →
      FullAfterReset c (fullRun c a (.init c) (ins ++ [r])) := by
  have hl0 : Lens (.init c) := ⟨rfl, rfl, rfl, rfl⟩
  refine ⟨⟨init_afterReset c, hl0, rfl⟩, ?_⟩
  intro ins r hr
  have hl : ∀ (ins : List FullIn) (s : FullAxi), Lens s → Lens (fullRun c a s ins) := by
    intro ins
    induction ins with
    | nil => intro s h; exact h
    | cons i r ih => intro s h; exact ih _ (lens_step h i)
  have hreach : CamReach c T (fullRun c a (.init c) ins).cam := by
    rw [cam_run]
    obtain ⟨m, hm, e⟩ := init_afterReset c
    refine reach_run h a _ ?_ (cIn_wf hps hbd _ _)
    show CamReach c T (Cam.init c)
    rw [e]; exact ⟨_, _, _, _, _, _, Cam.inv_reset h.core hm⟩
  rw [fullRun_append]
  show FullAfterReset c ((fullRun c a (.init c) ins).step c a r)
  refine ⟨?_, lens_step (hl _ _ hl0) r, ?_⟩
  · rw [step_cam]
    exact (reach_step h a hreach _ (cIn_wf (a := a) hps hbd [r] _ _ (List.mem_singleton.2 rfl))).2 hr
  · unfold FullAxi.step
    rw [if_pos hr]
    rfl

/-! ### Control -/

/-- Registers and masters quiet. -/
structure Quiet (s : FullAxi) : Prop where
  start : s.dma.start = 0
  fsm : s.dma.fsm = .idle ∨ s.dma.fsm = .rdAddr ∨ s.dma.fsm = .rdData
  ar : s.rd.arvalid = false
  aw : s.wr.awvalid = false
  w : s.wr.wvalid = false
  last : s.wr.wlast = false
  act : s.wr.active = 0

theorem quiet_clear (t : FullAxi) : Quiet t.clear := ⟨rfl, .inl rfl, rfl, rfl, rfl, rfl, rfl⟩

theorem quiet_step {s : FullAxi} (h : Quiet s) (i : FullIn) (hi : i.lite.awvalid = false) : Quiet (s.step c a i) := by
  unfold FullAxi.step
  split
  · exact quiet_clear _
  · obtain ⟨h1, h2, h3, h4, h5, h6, h7⟩ := h
    have he : s.enable = false := by simp [FullAxi.enable, h1]
    have hd : (s.dma.step i.lite (s.regs i)).start = 0 ∧ ((s.dma.step i.lite (s.regs i)).fsm = .idle ∨
        (s.dma.step i.lite (s.regs i)).fsm = .rdAddr ∨ (s.dma.step i.lite (s.regs i)).fsm = .rdData) := by
      unfold DmaLite.step
      rcases h2 with h2 | h2 | h2
      · rw [h2]; simp only [hi, Bool.false_eq_true, if_false]
        split <;> simp [h1]
      · rw [h2]; simp [h1]
      · rw [h2]
        dsimp only
        unfold DmaLite.readData
        dsimp only
        repeat' split
        all_goals simp [h1, h2]
    refine ⟨hd.1, hd.2, ?_, ?_, ?_, ?_, ?_⟩
    · simp [FullAxi.run1, HpReader.step, h3, FullAxi.rdIn, he]
    · simp [FullAxi.run1, HpWriter.step, h4, FullAxi.wrIn, he]
    · simp [FullAxi.run1, HpWriter.step, h5, h7]
    · simp [FullAxi.run1, HpWriter.step, HpWriter.dataEn, h5, h6]
    · simp [FullAxi.run1, HpWriter.step, HpWriter.addrEn, h4, h6, h7]

/-- C54: after every reset — also the one at the end of each frame — the transfers stay stopped until software writes
the registers again: no burst is requested and nothing is written to memory as long as there is no bus write. -/
theorem C54_stopped_after_reset {s : FullAxi} (hs : FullAfterReset c s) (ins : List FullIn)
    (hi : ∀ i ∈ ins, i.lite.awvalid = false) :
    readBursts c a s ins = [] ∧ writeBursts c a s ins = [] ∧ memBeats c a s ins = [] := by
  have hq : Quiet s := by rw [hs.clear]; exact quiet_clear s
  clear hs
  induction ins generalizing s with
  | nil => exact ⟨rfl, rfl, rfl⟩
  | cons i r ih =>
    obtain ⟨e1, e2, e3⟩ := ih (fun j hj => hi j (List.mem_cons_of_mem _ hj)) (quiet_step (c := c) (a := a) hq i (hi i (List.mem_cons_self ..)))
    simp only [readBursts, writeBursts, memBeats, e1, e2, e3, hq.ar, hq.aw, hq.w, Bool.false_and, Bool.false_eq_true, if_false,
      List.append_nil, and_self]

/-- Two states that differ at most in the burst counters and the bus read data. -/
def SameBut (s t : FullAxi) : Prop := ∃ r w d, t = { s with cntR := r, cntW := w, dma := { s.dma with rdata := d } }

theorem dma_rdata (s : DmaLite) (d : Nat) (i : LiteIn) (f g : Nat → Nat) :
    ∃ d', { s with rdata := d }.step i g = { s.step i f with rdata := d' } := by
  refine ⟨(DmaLite.step { s with rdata := d } i g).rdata, ?_⟩
  obtain ⟨fsm, addr, x1, x2, x3, x4, x5, x6, x7, x8, x9, x10, x11⟩ := s
  cases fsm <;> simp only [DmaLite.step, DmaLite.readData, DmaLite.writeData, DmaLite.enable, DmaLite.index] <;>
    (repeat' split) <;> first | rfl | simp_all

theorem sameBut_step {s t : FullAxi} (h : SameBut s t) (i : FullIn) : SameBut (s.step c a i) (t.step c a i) := by
  obtain ⟨r, w, d, rfl⟩ := h
  have h1 : ∀ (x y : FullAxi), x.rd = y.rd → x.agr = y.agr → x.rfifo = y.rfifo → x.dma.start = y.dma.start →
      x.rd.step (x.rdIn i) = y.rd.step (y.rdIn i) := by
    intro x y e1 e2 e3 e4
    unfold HpReader.step FullAxi.rdIn FullAxi.readEnd FullAxi.enable HpReader.addrEn
    rw [e1, e2, e3, e4]
    dsimp only
    cases hv : y.rd.arvalid <;> simp
  have h2 : ∀ (x y : FullAxi), x.wr = y.wr → x.agw = y.agw → x.wfifo = y.wfifo → x.dma.start = y.dma.start →
      x.wr.step (x.wrIn i) = y.wr.step (y.wrIn i) := by
    intro x y e1 e2 e3 e4
    unfold HpWriter.step FullAxi.wrIn FullAxi.writeEnd FullAxi.enable HpWriter.addrEn
    rw [e1, e2, e3, e4]
    dsimp only
    cases hv : y.wr.awvalid <;> simp
  obtain ⟨d', hd⟩ := dma_rdata s.dma d i.lite (s.regs i) (FullAxi.regs { s with cntR := r, cntW := w, dma := { s.dma with rdata := d } } i)
  have hr : SameBut (s.run1 c a i) (FullAxi.run1 c a { s with cntR := r, cntW := w, dma := { s.dma with rdata := d } } i) := by
    refine ⟨(FullAxi.run1 c a { s with cntR := r, cntW := w, dma := { s.dma with rdata := d } } i).cntR,
      (FullAxi.run1 c a { s with cntR := r, cntW := w, dma := { s.dma with rdata := d } } i).cntW, d', ?_⟩
    have e1 := h1 { s with cntR := r, cntW := w, dma := { s.dma with rdata := d } } s rfl rfl rfl rfl
    have e2 := h2 { s with cntR := r, cntW := w, dma := { s.dma with rdata := d } } s rfl rfl rfl rfl
    unfold FullAxi.run1
    rw [hd, e1, e2]
    rfl
  unfold FullAxi.step
  split
  · obtain ⟨r', w', d', e⟩ := hr
    rw [e]
    exact ⟨0, 0, 0, rfl⟩
  · exact hr

/-- C54 (limit of the code): the limits of 196608 read bursts and 131072 write bursts have no effect: whatever the burst
counters hold, the bursts requested, the beats transferred and the words given are the same. -/
theorem C54_limits_ineffective (s : FullAxi) (r w : Nat) (ins : List FullIn) :
    let t : FullAxi := { s with cntR := r, cntW := w }
    readBursts c a t ins = readBursts c a s ins ∧ writeBursts c a t ins = writeBursts c a s ins ∧
    readBeats c a t ins = readBeats c a s ins ∧ memBeats c a t ins = memBeats c a s ins ∧
    coreWords c a t ins = coreWords c a s ins := by
  intro t
  have h : SameBut s t := ⟨r, w, s.dma.rdata, rfl⟩
  revert h
  generalize t = t
  induction ins generalizing s t with
  | nil => intro _; exact ⟨rfl, rfl, rfl, rfl, rfl⟩
  | cons i l ih =>
    intro h
    obtain ⟨e1, e2, e3, e4, e5⟩ := ih _ _ (sameBut_step (c := c) (a := a) h i)
    obtain ⟨_, _, _, rfl⟩ := h
    simp only [readBursts, writeBursts, readBeats, memBeats, coreWords, e1, e2, e3, e4, e5, true_and]
    rfl

theorem readBursts_obs (ins : List FullIn) : ∀ s : FullAxi, NoReset c a s ins →
    readBursts c a s ins = addrTaken 0x80 s.agr (observe c a aIn s ins) := by
  induction ins with
  | nil => intro s _; rfl
  | cons i r ih =>
    rintro s ⟨h, hr⟩
    simp only [readBursts, observe, addrTaken]
    rw [ih _ hr, step_run1 h]; rfl

def aInW (s : FullAxi) (i : FullIn) : AddrIn := ⟨s.dma.writeAddr, s.wr.addrEn i.awready⟩

theorem writeBursts_obs (ins : List FullIn) : ∀ s : FullAxi, NoReset c a s ins →
    writeBursts c a s ins = addrTaken 0x80 s.agw (observe c a aInW s ins) := by
  induction ins with
  | nil => intro s _; rfl
  | cons i r ih =>
    rintro s ⟨h, hr⟩
    simp only [writeBursts, observe, addrTaken]
    rw [ih _ hr, step_run1 h]; rfl

theorem addrTaken_nil (shift : Nat) : ∀ (is : List AddrIn) (g : AddrGen), addrTaken shift g is = [] → ∀ i ∈ is, i.latch = false
  | [], _, _, i, hi => by cases hi
  | j :: r, g, h, i, hi => by
    simp only [addrTaken, List.append_eq_nil_iff] at h
    rcases List.mem_cons.1 hi with rfl | hi
    · have := h.1
      cases hl : i.latch with
      | false => rfl
      | true => simp [hl] at this
    · exact addrTaken_nil shift r _ h.2 i hi

theorem addr_seq {g : AddrGen} (hg : g = .init) (pre rest : List AddrIn) (x l : AddrIn)
    (h0 : addrTaken 0x80 g (pre ++ [x]) = []) (hl : l.latch = true) :
    addrTaken 0x80 g (pre ++ [x] ++ l :: rest) =
      (List.range (addrTaken 0x80 g (pre ++ [x] ++ l :: rest)).length).map fun k => (x.start + k * 128) % 2 ^ 32 := by
  subst hg
  have hn := addrTaken_nil _ _ _ h0
  have := C40_addresses 0x80 pre rest x l (hn x (by simp)) hl (fun i hi => hn i (by simp [hi]))
  rw [this]
  simp

/-- C54: within a frame, the read bursts requested have the addresses base, base + 128, base + 256, … modulo 2^32 without gap or
repetition, where base is the register "read address" in the cycle `x` before the first burst; and the same for the
write bursts. -/
theorem C54_addresses {s : FullAxi} (hs : FullAfterReset c s) (pre rest : List FullIn) (x l : FullIn)
    (hnr : NoReset c a s (pre ++ [x] ++ l :: rest)) :
    (readBursts c a s (pre ++ [x]) = [] → ((fullRun c a s (pre ++ [x])).rd.arvalid && l.arready) = true →
      let bursts := readBursts c a s (pre ++ [x] ++ l :: rest)
      bursts = (List.range bursts.length).map fun k => ((fullRun c a s pre).dma.readAddr + k * 128) % 2 ^ 32) ∧
    (writeBursts c a s (pre ++ [x]) = [] → ((fullRun c a s (pre ++ [x])).wr.awvalid && l.awready) = true →
      let bursts := writeBursts c a s (pre ++ [x] ++ l :: rest)
      bursts = (List.range bursts.length).map fun k => ((fullRun c a s pre).dma.writeAddr + k * 128) % 2 ^ 32) := by
  have hpre : ∀ (p q : List FullIn) (s : FullAxi), NoReset c a s (p ++ q) → NoReset c a s p := by
    intro p
    induction p with
    | nil => intro q s _; trivial
    | cons i p ih => rintro q s ⟨h1, h2⟩; exact ⟨h1, ih _ _ h2⟩
  have hp := hpre _ _ _ hnr
  constructor
  · intro h0 hl bursts
    have e := readBursts_obs _ _ hnr
    have e0 := readBursts_obs _ _ hp
    rw [h0] at e0
    rw [observe_append, observe_append] at e
    rw [observe_append] at e0
    show readBursts c a s _ = List.map _ (List.range (readBursts c a s _).length)
    rw [e]
    exact addr_seq (congrArg FullAxi.agr hs.clear) (observe c a aIn s pre) _ (aIn (fullRun c a s pre) x) _ e0.symm hl
  · intro h0 hl bursts
    have e := writeBursts_obs _ _ hnr
    have e0 := writeBursts_obs _ _ hp
    rw [h0] at e0
    rw [observe_append, observe_append] at e
    rw [observe_append] at e0
    show writeBursts c a s _ = List.map _ (List.range (writeBursts c a s _).length)
    rw [e]
    exact addr_seq (congrArg FullAxi.agw hs.clear) (observe c a aInW s pre) _ (aInW (fullRun c a s pre) x) _ e0.symm hl

end
/-! ### A concrete system -/

/-- No bus access. -/
def liteIdle : LiteIn := ⟨false, 0, false, false, 0, false, 0, 0, false⟩

/-- A bus write of `d` to DMA register `k`: four cycles. -/
def dmaWrite (k d : Nat) : List LiteIn :=
  List.replicate 4 { liteIdle with awvalid := true, awaddr := 0x1000 + 4 * k, wvalid := true, wdata := d, wstrb := 15, bready := true }

/-- Read address 0x1000, write address 0x2000, start. -/
def dmaStart : List LiteIn := dmaWrite 0 0x1000 ++ dmaWrite 1 0x2000 ++ dmaWrite 2 0xFFFFFFFF

/-- The cycles of a system with a memory that answers at once: `n` beats owed, the next read beat has number `k`
and holds the four pixels `f (4k)`, …; write data are always accepted. -/
def memSystem (c : CoreCfg) (a : Nat) (f : Nat → Nat) : (n k : Nat) → FullAxi → List LiteIn → List FullIn
  | _, _, _, [] => []
  | n, k, s, l :: r =>
    let v := decide (0 < n)
    let i : FullIn := ⟨l, true, v, v && n % 16 == 1, f (4 * k) * 2 ^ 32 + f (4 * k + 1) * 2 ^ 44 + f (4 * k + 2) + f (4 * k + 3) * 2 ^ 12, true, true, true, 0, 0⟩
    let b := if s.rd.rready && v then 1 else 0
    i :: memSystem c a f (n + (if s.rd.arvalid then 16 else 0) - b) (k + b) (s.step c a i) r

instance decNoReset (c : CoreCfg) (a : Nat) : ∀ (s : FullAxi) (is : List FullIn), Decidable (NoReset c a s is)
  | _, [] => isTrue trivial
  | s, i :: r =>
    have := decNoReset c a (s.step c a i) r
    by unfold NoReset; exact inferInstance

instance decReadSlave (c : CoreCfg) (a : Nat) : ∀ (n : Nat) (s : FullAxi) (is : List FullIn), Decidable (ReadSlave c a n s is)
  | _, _, [] => isTrue trivial
  | n, s, i :: r =>
    have := decReadSlave c a (n + (if s.rd.arvalid && i.arready then 16 else 0) - (if s.rd.rready && i.rvalid then 1 else 0)) (s.step c a i) r
    by unfold ReadSlave; exact inferInstance

instance decWriteSlave (c : CoreCfg) (a : Nat) : ∀ (s : FullAxi) (is : List FullIn), Decidable (WriteSlave c a s is)
  | _, [] => isTrue trivial
  | s, i :: r =>
    have := decWriteSlave c a (s.step c a i) r
    by unfold WriteSlave; exact inferInstance

/-- A 16×8 image. -/
def midCfg : CoreCfg :=
  { int1 := { bd := 12, ps := 2, W := 16, H := 8, mem := initHuffTable 12 }
    depth := 32, conv := 30, cdepth := 16, out := 16, buf := 77 }

def midPixel (k : Nat) : Nat := (k * k * 77 + 5 + k) % 4096

def midIns : List FullIn := memSystem midCfg 1000 midPixel 0 0 (.init midCfg) (dmaStart ++ List.replicate 201 liteIdle)

-- The hypotheses of the theorems of this file are met from power-up: the registers are programmed over the bus, the
-- frame's last word is given in cycle 211.
set_option maxRecDepth 40000 in
example : CamSetup midCfg defaultTable ∧ FullAfterReset midCfg (.init midCfg) ∧
    (let s := FullAxi.init midCfg
     let pre := midIns.take 211
     let upto := midIns.take 212
     ReadSlave midCfg 1000 0 s upto ∧ (∀ j ∈ upto, j.rdata < 2 ^ 64) ∧ WriteSlave midCfg 1000 s midIns ∧ NoReset midCfg 1000 s upto ∧
     (∀ x ∈ coreWords midCfg 1000 s pre, x.2 = false) ∧ (0xFFFF, true) ∈ coreWords midCfg 1000 s upto ∧
     readBursts midCfg 1000 s upto = (List.range 12).map (fun k => 0x1000 + 128 * k) ∧
     writeBursts midCfg 1000 s upto = (List.range 10).map (fun k => 0x2000 + 128 * k)) :=
  ⟨⟨default_setup (by decide) rfl, rfl, default_long _ (by decide)⟩,
   (C54_every_reset (a := 1000) ⟨default_setup (by decide) rfl, rfl, default_long _ (by decide)⟩ rfl rfl).1, by decide +kernel⟩

-- C54 (limit of the code): that frame has 170 words, of which only the first 132 (33 beats) are in memory when the
-- reset has emptied the FIFO; 38 words, most of them image data, are lost.
set_option maxRecDepth 40000 in
theorem C54_tail_lost_limit :
    let s := FullAxi.init midCfg
    let words := coreWords midCfg 1000 s (midIns.take 212)
    let mem := memBeats midCfg 1000 s midIns
    words.length = 170 ∧ words.getLast? = some (0xFFFF, true) ∧ midIns.length = 213 ∧
    mem = (groups4 (words.map Prod.fst)).take 33 ∧
    (fullRun midCfg 1000 s midIns).wfifo.level = 0 := by decide +kernel

def twoIns : List FullIn :=
  memSystem tinyStream 1000 midPixel 0 0 (.init tinyStream) (dmaStart ++ List.replicate 60 liteIdle ++ dmaStart ++ List.replicate 60 liteIdle)

-- C54 (limit of the code): the reader requests bursts beyond the frame, and the reset forgets those not yet delivered.
-- Here two frames of a 4×2 image are read, the registers being programmed again after the first. The bursts of the second
-- frame start at the base address again, but the first beats it receives are number 32, 33, … of the first request series, so
-- its image is not the one at the base address.
set_option maxRecDepth 40000 in
theorem C54_stale_beats_limit :
    let s1 := fullRun tinyStream 1000 (.init tinyStream) (twoIns.take 69)
    FullAfterReset tinyStream s1 ∧
    (readBeats tinyStream 1000 (.init tinyStream) (twoIns.take 69)).flatMap beatPixels = (List.range 128).map midPixel ∧
    readBursts tinyStream 1000 (.init tinyStream) (twoIns.take 69) = (List.range 10).map (fun k => 0x1000 + 128 * k) ∧
    (readBursts tinyStream 1000 s1 (twoIns.drop 69)).head? = some 0x1000 ∧
    ((readBeats tinyStream 1000 s1 (twoIns.drop 69)).flatMap beatPixels).take 8 = (List.range 8).map fun k => midPixel (128 + k) := by
  intro s1
  refine ⟨?_, by decide +kernel⟩
  have e : s1 = fullRun tinyStream 1000 (.init tinyStream) (twoIns.take 68 ++ [twoIns.getD 68 ⟨liteIdle, false, false, false, 0, false, false, false, 0, 0⟩]) := by
    decide +kernel
  rw [e]
  exact (C54_every_reset (a := 1000) ⟨default_setup (by decide) rfl, rfl, default_long _ (by decide)⟩ rfl rfl).2 _ _ (by decide +kernel)

-- The hypotheses of C54_short_frame_lost are met by the first of these frames: its last word is given in cycle 67.
set_option maxRecDepth 40000 in
example : (∀ x ∈ coreWords tinyStream 1000 (.init tinyStream) (twoIns.take 67), x.2 = false) ∧
    (0xFFFF, true) ∈ coreWords tinyStream 1000 (.init tinyStream) (twoIns.take 68) ∧
    (coreWords tinyStream 1000 (.init tinyStream) (twoIns.take 67)).length < 64 ∧
    memBeats tinyStream 1000 (.init tinyStream) (twoIns.take 69) = [] := by decide +kernel

end Props
