/- Property theorems C49: the register driver over the bus and the core's register slave. -/
import Verif.Props.Lite
import Verif.Model.Driver
import Verif.Model.Encode
import Verif.Spec.Jpeg
import Verif.Props.LiteLive

set_option autoImplicit false

namespace Props
open Model Spec

/-- Running over an accepted bus: the answers of reads are those of the register map. -/
theorem runs_get {α : Type} {R L : Type} {m : RegMap R L} {g : R} {off : Nat} {k : Nat → Prog α} {es tail : List BusEv} {a : α}
    (hr : Prog.Runs (.get off k) es a) (hacc : Accepted m (g, .idle) (es ++ tail)) :
    ∃ d c live es', es = .ar (4 * off) :: .r d c :: es' ∧ (∀ v ∈ (m.read g live (4 * off)).1, d = v) ∧
      Prog.Runs (k d) es' a ∧ Accepted m (g, .idle) (es' ++ tail) ∧
      regsAfter m (g, .idle) es = regsAfter m (g, .idle) es' := by
  cases hr with
  | @get _ d c _ es' _ h =>
    obtain ⟨_, ⟨live, st', h2⟩, h3⟩ := hacc
    refine ⟨d, c, live, es', rfl, ?_, h, h3, rfl⟩
    simp only [regsAfter, busEv] at h2
    split at h2
    · rename_i hh; exact hh.2
    · cases h2

theorem runs_set {α : Type} {R L : Type} {m : RegMap R L} {g : R} {off v : Nat} {k : Prog α} {es tail : List BusEv} {a : α}
    (hr : Prog.Runs (.set off v k) es a) (hacc : Accepted m (g, .idle) (es ++ tail)) :
    ∃ c es', es = .aw (4 * off) :: .w v 15 :: .b c :: es' ∧ Prog.Runs k es' a ∧
      Accepted m ((m.write g (4 * off) v 15).1, .idle) (es' ++ tail) ∧
      regsAfter m (g, .idle) es = regsAfter m ((m.write g (4 * off) v 15).1, .idle) es' := by
  cases hr with
  | @set _ _ c _ es' _ h =>
    obtain ⟨_, _, _, h3⟩ := hacc
    exact ⟨c, es', rfl, h, h3, rfl⟩

theorem runs_ret {α : Type} {a b : α} {es : List BusEv} (h : Prog.Runs (.ret a) es b) : es = [] ∧ b = a := by
  cases h; exact ⟨rfl, rfl⟩

theorem strobed_all {old d : Nat} (hd : d < 2 ^ 32) : strobed old d 15 = d := by
  have : Nat.testBit 15 0 = true ∧ Nat.testBit 15 1 = true ∧ Nat.testBit 15 2 = true ∧ Nat.testBit 15 3 = true := by decide
  simp only [strobed, this, if_true, byteAt]
  omega

theorem hw_addr (bd : Nat) : HwWord bd (4 * HW_OFFSET) ∧ CyclesWord bd (4 * (HW_OFFSET + 1)) := by
  have h1 : (4 * HW_OFFSET).testBit 12 = false := by decide
  have h2 : (4 * (HW_OFFSET + 1)).testBit 12 = false := by decide
  refine ⟨⟨?_, by decide, by decide⟩, ⟨?_, by decide, by decide⟩⟩
  · rw [inTable, h1]; rfl
  · rw [inTable, h2]; rfl

theorem table_addr {bd i : Nat} (hbd : bd ≤ 16) (hi : i < bd) :
    TableWord bd (4 * (SSSS_OFFSET + 2 * i)) i 0 ∧ TableWord bd (4 * (SSSS_OFFSET + (2 * i + 1))) i 1 := by
  have ht : ∀ j, j < 64 → (4 * (SSSS_OFFSET + j)).testBit 12 = true := by decide
  refine ⟨⟨?_, ?_, ?_⟩, ⟨?_, ?_, ?_⟩⟩
  · rw [inTable, ht _ (by omega)]; rw [Bool.true_and]; apply decide_eq_true; simp only [SSSS_OFFSET]; omega
  · simp only [SSSS_OFFSET]; omega
  · simp only [SSSS_OFFSET]; omega
  · rw [inTable, ht _ (by omega)]; rw [Bool.true_and]; apply decide_eq_true; simp only [SSSS_OFFSET]; omega
  · simp only [SSSS_OFFSET]; omega
  · simp only [SSSS_OFFSET]; omega

theorem pack_hw {w h : Nat} (hh : h < 2 ^ 16) : (w <<< 16) ||| h = w * 2 ^ 16 + h := by
  rw [Nat.shiftLeft_eq, Nat.mul_comm, Nat.two_pow_add_eq_or_of_lt hh]

theorem readCodes_runs {α : Type} {bd : Nat} {debug : Bool} (hbd : bd ≤ 16) {g : CoreRegs} {tail : List BusEv} {y : α} :
    ∀ (n i : Nat) (k : List Nat → Prog α) (es : List BusEv), i + n ≤ bd →
      (readCodes n i k).Runs es y → Accepted (coreMap bd debug) (g, .idle) (es ++ tail) →
      ∃ es', (k ((List.range' i n).map g.table)).Runs es' y ∧ Accepted (coreMap bd debug) (g, .idle) (es' ++ tail) ∧
        regsAfter (coreMap bd debug) (g, .idle) es = regsAfter (coreMap bd debug) (g, .idle) es'
  | 0, _, _, es, _, hr, ha => ⟨es, hr, ha, rfl⟩
  | n + 1, i, k, es, hi, hr, ha => by
    obtain ⟨d, c, l, es1, rfl, hd, hr1, ha1, e1⟩ := runs_get hr ha
    obtain ⟨d', c', l', es2, rfl, hd', hr2, ha2, e2⟩ := runs_get hr1 ha1
    obtain ⟨es3, hr3, ha3, e3⟩ := readCodes_runs hbd n (i + 1) _ es2 (by omega) hr2 ha2
    refine ⟨es3, ?_, ha3, by rw [e1, e2, e3]⟩
    obtain ⟨t0, t1⟩ := table_addr (bd := bd) (i := i) hbd (by omega)
    simp only [coreMap, t0.1, t0.2.1, t0.2.2, if_true, Option.mem_def, Option.some.injEq, forall_eq'] at hd
    simp only [coreMap, t1.1, t1.2.1, t1.2.2, if_true, Option.mem_def, Option.some.injEq, forall_eq', Nat.one_ne_zero, if_false] at hd'
    have : (d' <<< 32) ||| d = g.table i := by
      rw [hd, hd', Nat.shiftLeft_eq, Nat.mul_comm, ← Nat.two_pow_add_eq_or_of_lt (Nat.mod_lt _ (by decide))]
      exact Nat.div_add_mod _ _
    rw [this] at hr3
    simpa [List.range'_succ] using hr3

/-- The driver's view of the registers. -/
def drvView (g : CoreRegs) : DrvState := ⟨g.hw % 2 ^ 16, g.hw / 2 ^ 16, g.allowed⟩

/-- The codes `get_ssss` computes from a table. -/
def codesOf (bd : Nat) (table : Nat → Nat) : List (Nat × Nat) :=
  ((List.range bd).map table).zipIdx.map fun e => decodeEntry bd e.2 e.1

theorem call_runs {bd : Nat} {debug : Bool} (hbd : bd ≤ 16) {g : CoreRegs} {tail es : List BusEv} {c : DrvCall} {y : DrvReply}
    (hc : c.Typed) (hg : g.hw < 2 ^ 32) (hr : (callProg bd c).Runs es y)
    (ha : Accepted (coreMap bd debug) (g, .idle) (es ++ tail)) :
    ∃ g', regsAfter (coreMap bd debug) (g, .idle) es = (g', .idle) ∧ g'.table = g.table ∧ g'.hw < 2 ^ 32 ∧
      (drvView g', y) = drvCall (codesOf bd g.table) (drvView g) c ∧ Accepted (coreMap bd debug) (g', .idle) tail := by
  obtain ⟨a0, a1⟩ := hw_addr bd
  have rd : ∀ live, ((coreMap bd debug).read g live (4 * HW_OFFSET)).1 = some g.hw := by
    intro live; simp only [coreMap, a0.1, a0.2.1, a0.2.2, Bool.false_eq_true, if_false, if_true]
  have rc : ∀ live, ((coreMap bd debug).read g live (4 * (HW_OFFSET + 1))).1 = some g.allowed := by
    intro live; simp only [coreMap, a1.1, a1.2.1, a1.2.2, Bool.false_eq_true, if_false, if_true, Nat.one_ne_zero]
  have wr : ∀ v, v < 2 ^ 32 → ((coreMap bd debug).write g (4 * HW_OFFSET) v 15).1 = { g with hw := v } := by
    intro v hv; simp only [coreMap, a0.1, a0.2.1, a0.2.2, Bool.false_eq_true, if_false, if_true, strobed_all hv]
  have wc : ∀ v, v < 2 ^ 32 → ((coreMap bd debug).write g (4 * (HW_OFFSET + 1)) v 15).1 = { g with allowed := v % 2 ^ 24 } := by
    intro v hv
    simp only [coreMap, a1.1, a1.2.1, a1.2.2, Bool.false_eq_true, if_false, if_true, strobed_all hv, Nat.one_ne_zero]
  have hand : ∀ v : Nat, v &&& 0xFFFF = v % 2 ^ 16 := fun v => Nat.and_two_pow_sub_one_eq_mod v 16
  have hshr : ∀ v : Nat, v >>> 16 = v / 2 ^ 16 := fun v => Nat.shiftRight_eq_div_pow v 16
  have hdiv : g.hw / 2 ^ 16 % 2 ^ 16 = g.hw / 2 ^ 16 := Nat.mod_eq_of_lt (by omega)
  cases c with
  | getHeight =>
    obtain ⟨d, c, l, es1, rfl, hd, hr1, ha1, e1⟩ := runs_get hr ha
    obtain ⟨rfl, rfl⟩ := runs_ret hr1
    rw [rd] at hd
    have hd := hd _ rfl
    subst hd
    refine ⟨g, e1, rfl, hg, ?_, ha1⟩
    simp [drvCall, drvView, hand]
  | getWidth =>
    obtain ⟨d, c, l, es1, rfl, hd, hr1, ha1, e1⟩ := runs_get hr ha
    obtain ⟨rfl, rfl⟩ := runs_ret hr1
    rw [rd] at hd
    have hd := hd _ rfl
    subst hd
    refine ⟨g, e1, rfl, hg, ?_, ha1⟩
    simp only [drvCall, drvView, hshr, hdiv]
  | getAllowedCycles =>
    obtain ⟨d, c, l, es1, rfl, hd, hr1, ha1, e1⟩ := runs_get hr ha
    obtain ⟨rfl, rfl⟩ := runs_ret hr1
    rw [rc] at hd
    have hd := hd _ rfl
    subst hd
    exact ⟨g, e1, rfl, hg, rfl, ha1⟩
  | getSsss =>
    obtain ⟨es1, hr1, ha1, e1⟩ := readCodes_runs hbd bd 0 _ es (by omega) hr ha
    obtain ⟨rfl, rfl⟩ := runs_ret hr1
    refine ⟨g, e1, rfl, hg, ?_, ha1⟩
    simp [drvCall, codesOf, List.range_eq_range']
  | setHeight h =>
    obtain ⟨d, c, l, es1, rfl, hd, hr1, ha1, e1⟩ := runs_get hr ha
    obtain ⟨c', es2, rfl, hr2, ha2, e2⟩ := runs_set hr1 ha1
    obtain ⟨rfl, rfl⟩ := runs_ret hr2
    rw [rd] at hd
    have hd := hd _ rfl
    subst hd
    have hh : h < 2 ^ 16 := hc
    have hv : g.hw / 2 ^ 16 * 2 ^ 16 + h < 2 ^ 32 := by omega
    rw [hshr, hdiv, pack_hw hh, wr _ hv] at ha2 e2
    refine ⟨{ g with hw := g.hw / 2 ^ 16 * 2 ^ 16 + h }, by rw [e1, hshr, hdiv, pack_hw hh]; exact e2, rfl, hv, ?_, ha2⟩
    simp only [drvCall, drvView, Prod.mk.injEq, DrvState.mk.injEq, and_true]
    omega
  | setWidth w =>
    obtain ⟨d, c, l, es1, rfl, hd, hr1, ha1, e1⟩ := runs_get hr ha
    obtain ⟨c', es2, rfl, hr2, ha2, e2⟩ := runs_set hr1 ha1
    obtain ⟨rfl, rfl⟩ := runs_ret hr2
    rw [rd] at hd
    have hd := hd _ rfl
    subst hd
    have hh : w < 2 ^ 16 := hc
    have hv : w * 2 ^ 16 + g.hw % 2 ^ 16 < 2 ^ 32 := by omega
    rw [hand, pack_hw (Nat.mod_lt _ (by decide)), wr _ hv] at ha2 e2
    refine ⟨{ g with hw := w * 2 ^ 16 + g.hw % 2 ^ 16 }, by rw [e1, hand, pack_hw (Nat.mod_lt _ (by decide))]; exact e2, rfl, hv, ?_, ha2⟩
    simp only [drvCall, drvView, Prod.mk.injEq, DrvState.mk.injEq, and_true]
    omega
  | setAllowedCycles v =>
    obtain ⟨c', es2, rfl, hr2, ha2, e2⟩ := runs_set hr ha
    obtain ⟨rfl, rfl⟩ := runs_ret hr2
    have hh : v < 2 ^ 32 := hc
    rw [wc _ hh] at ha2 e2
    exact ⟨_, e2, rfl, hg, rfl, ha2⟩

theorem calls_run {bd : Nat} {debug : Bool} (hbd : bd ≤ 16) : ∀ {cs : List DrvCall} {es : List BusEv} {ys : List DrvReply}
    {g : CoreRegs}, CallsRun bd cs es ys → (∀ c ∈ cs, c.Typed) → g.hw < 2 ^ 32 → Accepted (coreMap bd debug) (g, .idle) es →
    ∃ g', regsAfter (coreMap bd debug) (g, .idle) es = (g', .idle) ∧ g'.table = g.table ∧ g'.hw < 2 ^ 32 ∧
      (drvView g', ys) = drvCalls (codesOf bd g.table) (drvView g) cs := by
  intro cs es ys g h
  induction h generalizing g with
  | nil => intro _ hg _; exact ⟨g, rfl, rfl, hg, rfl⟩
  | @cons c cs es es' y ys h1 h2 ih =>
    intro hc hg ha
    obtain ⟨g1, e1, e2, e3, e4, e5⟩ := call_runs hbd (hc c (List.mem_cons_self ..)) hg h1 ha
    obtain ⟨g2, f1, f2, f4, f3⟩ := ih (fun c h => hc c (List.mem_cons_of_mem _ h)) e3 e5
    refine ⟨g2, by rw [regsAfter_append, e1, f1], by rw [f2, e2], f4, ?_⟩
    rw [drvCalls, ← e4]
    simp only
    rw [e2] at f3
    rw [← f3]

/-- C49: every sequence of driver calls, run over the bus against the register slave from reset, returns
exactly what the plain record of `Spec.drvCalls` returns — set_height and set_width change only their
field, the getters return what was set last (cycles modulo 2^24) — and the height, width and cycle
budget used by the core are those of the record. -/
theorem C49_driver {bd : Nat} (hbd : bd ≤ 16) (debug : Bool) (table : Nat → Nat)
    (ht : ∀ k, table k < 2 ^ (bd + 21)) (is : List CoreLiteIn) (hm : CoreLiteMaster bd debug (.init table) is)
    (cs : List DrvCall) (ys : List DrvReply) (hc : ∀ c ∈ cs, c.Typed)
    (h : CallsRun bd cs (coreLiteTransfers bd debug (.init table) is) ys) :
    ys = (drvCalls (codesOf bd table) ⟨0, 0, 0⟩ cs).2 ∧
    (drvCalls (codesOf bd table) ⟨0, 0, 0⟩ cs).1 = ⟨(coreLiteRun bd debug (.init table) is).height,
      (coreLiteRun bd debug (.init table) is).width, (coreLiteRun bd debug (.init table) is).allowed⟩ := by
  obtain ⟨g, b1, _, b2, b3⟩ := calls_run hbd (g := resetRegs table) h hc (by simp [resetRegs])
    (coreLite_accepted hbd debug table ht is hm)
  have hv : drvView (resetRegs table) = ⟨0, 0, 0⟩ := by simp [drvView, resetRegs]
  rw [show (resetRegs table).table = table from rfl, hv] at b3
  rw [← b3]
  refine ⟨rfl, ?_⟩
  cases is with
  | nil =>
    have : g = resetRegs table := by
      have : (resetRegs table, BusPhase.idle) = (g, .idle) := b1
      exact (Prod.mk.inj this).1.symm
    rw [this, hv]
    simp [coreLiteRun, CoreLite.height, CoreLite.width, CoreLite.init]
  | cons i r =>
    obtain ⟨g', p, e1, e2⟩ := C37_bus_refines_register_map hbd debug table ht (i :: r) (fun _ => 0) (by simp) hm
    obtain ⟨a1, a2⟩ := busRun_accepted e1
    have : (g', p) = (g, BusPhase.idle) := by rw [a2]; exact b1
    obtain ⟨rfl, rfl⟩ := Prod.mk.inj this
    obtain ⟨f1, f2, f3, _⟩ := e2 (.inl rfl)
    have hdiv : g'.hw / 2 ^ 16 % 2 ^ 16 = g'.hw / 2 ^ 16 := Nat.mod_eq_of_lt (by omega)
    rw [f1, f2, f3, hdiv]
    rfl

/-- C49: on the default table `get_ssss` reports for each class below the bit depth the value and the
length of its Huffman code; the last class, `bd` itself, which the table has too, is missing. -/
theorem C49_default_codes (bd : Nat) (hbd : 2 ≤ bd ∧ bd ≤ 16) :
    codesOf bd (fun k => (initHuffTable bd).getD k 0) =
      (List.range bd).map (fun i => (ofBits (defaultTable i), (defaultTable i).length)) ∧
    (initHuffTable bd).length = bd + 1 := by
  have : ∀ bd, bd < 17 → 2 ≤ bd → codesOf bd (fun k => (initHuffTable bd).getD k 0) =
      (List.range bd).map (fun i => (ofBits (defaultTable i), (defaultTable i).length)) ∧
    (initHuffTable bd).length = bd + 1 := by decide +kernel
  exact this bd (by omega) hbd.1

instance (o : LiteOut) (i j : LiteIn) : Decidable (MasterNext o i j) :=
  decidable_of_iff ((i.arvalid = true → o.arready = false → j.arvalid = true ∧ j.araddr = i.araddr) ∧
    (i.awvalid = true → o.awready = false → j.awvalid = true ∧ j.awaddr = i.awaddr) ∧
    (i.wvalid = true → o.wready = false → j.wvalid = true ∧ j.wdata = i.wdata ∧ j.wstrb = i.wstrb) ∧
    (i.wvalid = true → o.wready = true → j.wvalid = false) ∧ (i.rready = true → o.rvalid = false → j.rready = true) ∧
    (i.bready = true → o.bvalid = false → j.bready = true))
    ⟨fun ⟨h1, h2, h3, h4, h5, h6⟩ => ⟨h1, h2, h3, h4, h5, h6⟩, fun h => ⟨h.ar, h.aw, h.w, h.w1, h.r, h.b⟩⟩

instance decMaster (bd : Nat) (debug : Bool) : ∀ (is : List CoreLiteIn) (s : CoreLite), Decidable (CoreLiteMaster bd debug s is)
  | [], _ => isTrue trivial
  | [_], _ => isTrue trivial
  | i :: j :: r, s => @instDecidableAnd _ _ _ (decMaster bd debug (j :: r) (s.cyc bd debug i))

/-- `set_height(0x200)` then `get_width()` over the bus. -/
def driverDemo : List CoreLiteIn :=
  (List.replicate 3 { quietLite with arvalid := true, araddr := 8192 } ++ List.replicate 3 quietLite ++
   List.replicate 3 { quietLite with awvalid := true, awaddr := 8192, wvalid := true, wdata := 0x200, wstrb := 15 } ++
   List.replicate 3 { quietLite with wvalid := true, wdata := 0x200, wstrb := 15 } ++ [quietLite] ++
   List.replicate 3 { quietLite with arvalid := true, araddr := 8192 } ++ List.replicate 3 quietLite).map (⟨·, fun _ => 0⟩)

example : CoreLiteMaster 12 false (.init fun _ => 0) driverDemo ∧ CoreLiteMaster 12 false (.init fun _ => 0) liteDemo := by
  decide +kernel

example : CallsRun 12 [.setHeight 0x200, .getWidth] (coreLiteTransfers 12 false (.init fun _ => 0) driverDemo) [.unit, .num 0] := by
  have : coreLiteTransfers 12 false (.init fun _ => 0) driverDemo =
    [.ar (4 * HW_OFFSET), .r 0 0, .aw (4 * HW_OFFSET), .w 0x200 15, .b 0] ++ ([.ar (4 * HW_OFFSET), .r 0x200 0] ++ []) := by
    decide +kernel
  rw [this]
  exact .cons (.get (.set (.ret _))) (.cons (.get (.ret _)) .nil)

end Props
