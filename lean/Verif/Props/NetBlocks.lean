/- Property theorems C87: the stand-alone netlists of the pipeline blocks, verilog_src/{difference,normalize,encode,merge,
predictor_p1_c4_px4,predictor_p1_c4_pix1_2,converter,lj92_pipeline_fifo,converter_fifo,register_file}.v (16-bit pixels).
Every theorem speaks about the generated netlist itself. -/
import Verif.Netlist.Alone.Blocks
import Verif.Netlist.Alone.Blocks2
import Verif.Props.Pixel
import Verif.Props.Pipeline
import Verif.Props.Core

set_option autoImplicit false

namespace Props.NetBlocks
open Model Spec Netlist

/-! ### Reset -/

/-- C87: a cycle with the reset input on leads from any state to the initial one, whatever the other inputs are (the table of
encode.v stays as it is, and so do the memories of the FIFOs). -/
theorem C87_reset :
    (∀ s x p x' p' e v, DiffV.top.step s x p x' p' e true v = DiffV.top.powerUp) ∧
    (∀ s v e m x, NormV.top.step s v e m true x = NormV.top.powerUp) ∧
    (∀ s e v ss x, (EncV.top.step s e v ss true x).u_w9 = EncV.top.powerUp.u_w9 ∧ (EncV.top.step s e v ss true x).mem = s.mem) ∧
    (∀ s c v e x' c' x, MergeV.top.step s c v e x' c' true x = MergeV.top.powerUp) ∧
    (∀ s x0 x1 x2 x3 nr e v, Px4V.top.step s x0 x1 x2 x3 nr e true v = Px4V.top.powerUp) ∧
    (∀ s nr x x' e v, Pix12V.top.step s nr x x' e true v = Pix12V.top.powerUp) ∧
    (∀ s v x c e f, ConvV.top.step s v x c e true f = ConvV.top.powerUp) ∧
    (∀ s x c e l v, let t := PipeFifoV.top.step s x c e l true v
      PipeFifoV.top.fifo_level t = 0 ∧ PipeFifoV.top.valid_out t = false ∧ t.close_full = false) ∧
    (∀ s x c e l v, let t := ConvFifoV.top.step s x c e l true v
      ConvFifoV.top.fifo_level t = 0 ∧ ConvFifoV.top.valid_out t = false ∧ t.close_full = false) := by
  refine ⟨?_, ?_, ?_, ?_, ?_, ?_, ?_, fun _ _ _ _ _ _ => ⟨rfl, rfl, rfl⟩, fun _ _ _ _ _ _ => ⟨rfl, rfl, rfl⟩⟩ <;> intros <;>
    simp [netlist, DiffV.top.powerUp, NormV.top.powerUp, NormV.anonymous.powerUp, EncV.top.powerUp, EncV.anonymous.powerUp,
      MergeV.top.powerUp, MergeV.anonymous.powerUp, Px4V.top.powerUp, Pix12V.top.powerUp, ConvV.top.powerUp]

/-! ### difference.v -/

/-- C87: in a valid cycle both lanes of difference.v take the difference `x - p` and the difference minus one, as 17-bit two's
complement numbers; in an idle cycle they keep what they have.  The ports `val_out$4` and `val_out$5` show the differences,
`val_out` and `val_out$3` the differences minus one. -/
theorem C87_difference (s : DiffV.top.S) (x p x' p' : Nat) (e : Bool) (hx : x < 2 ^ 16) (hp : p < 2 ^ 16) (hx' : x' < 2 ^ 16)
    (hp' : p' < 2 ^ 16) :
    (let t := DiffV.top.step s x p x' p' e false true
     t.valid_out = true ∧ t.end_out = e ∧ (t.val_out_4 : Int) = ((x : Int) - p) % 2 ^ 17 ∧
     (t.val_out_5 : Int) = ((x' : Int) - p') % 2 ^ 17 ∧ (t.val_out : Int) = ((x : Int) - p - 1) % 2 ^ 17 ∧
     (t.val_out_3 : Int) = ((x' : Int) - p' - 1) % 2 ^ 17) ∧
    (let t := DiffV.top.step s x p x' p' e false false
     t.valid_out = false ∧ t.end_out = e ∧ t.val_out_4 = s.val_out_4 ∧ t.val_out_5 = s.val_out_5 ∧ t.val_out = s.val_out ∧
     t.val_out_3 = s.val_out_3) := by
  constructor
  · have h := DiffV.step s x p x' p' e true hx hp hx' hp'
    simp only [DiffV.abs, Difference.step, if_true, List.zipWith_cons_cons, List.zipWith_nil_left, Difference.mk.injEq,
      List.cons.injEq, and_true] at h
    obtain ⟨⟨h1, h2⟩, ⟨h3, h4⟩, h5, h6⟩ := h
    refine ⟨h5, h6, ?_, ?_, ?_, ?_⟩
    · rw [h1]; simp only [Difference.diffVal]; omega
    · rw [h2]; simp only [Difference.diffVal]; omega
    · rw [h3]; simp only [Difference.diffMns]; omega
    · rw [h4]; simp only [Difference.diffMns]; omega
  · simp [netlist]

example : (DiffV.top.step DiffV.top.powerUp 5 9 7 7 false false true).val_out_4 = 2 ^ 17 - 4 := by decide

/-! ### difference.v, normalize.v and encode.v one after the other -/

/-- One cycle of input of the chain. -/
structure PixIn where
  x : Nat
  p : Nat
  valid : Bool
  endd : Bool

/-- The registers of the three netlists. -/
structure Chain where
  diff : DiffV.top.S
  norm : NormV.top.S
  enc : EncV.top.S

/-- The initial values of the three netlists. -/
def chainInit : Chain := ⟨DiffV.top.powerUp, NormV.top.powerUp, EncV.top.powerUp⟩

/-- One clock cycle of the chain: the first lane of difference.v feeds normalize.v, which feeds encode.v.  The second lane of
difference.v gets the same pixel. -/
def chainStep (s : Chain) (i : PixIn) : Chain :=
  { diff := DiffV.top.step s.diff i.x i.p i.x i.p i.endd false i.valid
    norm := NormV.top.step s.norm s.diff.valid_out s.diff.end_out s.diff.val_out false s.diff.val_out_4
    enc := EncV.top.step s.enc (NormV.top.end_out s.norm) (NormV.top.valid_out s.norm) (NormV.top.ssss s.norm) false
      (NormV.top.val_out s.norm) }

def chainRun (ins : List PixIn) : Chain := ins.foldl chainStep chainInit

theorem chainRun_snoc (ins : List PixIn) (i : PixIn) : chainRun (ins ++ [i]) = chainStep (chainRun ins) i := by
  simp [chainRun]

theorem chain_mem (ins : List PixIn) : (chainRun ins).enc.mem = initHuffTable 16 := by
  induction ins using snoc_induction with
  | h0 => exact EncV.table _ EncV.top.powerUp_init
  | h1 ins i ih => rw [chainRun_snoc]; exact ih

/-- Four cycles after a cycle the code word of its pixel is at the outputs of encode.v. -/
theorem chain_code (ins : List PixIn) (i a b c : PixIn) (hv : i.valid = true) (hx : i.x < 2 ^ 16) (hp : i.p < 2 ^ 16) :
    let e := (chainRun (ins ++ [i, a, b, c])).enc
    (EncV.top.enc_out e, EncV.top.enc_ctr e) = hwPixel 16 (initHuffTable 16) i.x i.p := by
  have e0 : chainRun (ins ++ [i, a, b, c]) = chainStep (chainStep (chainStep (chainStep (chainRun ins) i) a) b) c := by
    rw [show ins ++ [i, a, b, c] = (((ins ++ [i]) ++ [a]) ++ [b]) ++ [c] by simp, chainRun_snoc, chainRun_snoc, chainRun_snoc,
      chainRun_snoc]
  rw [e0]
  have hm := chain_mem ins
  generalize chainRun ins = s at hm
  have hm3 : (chainStep (chainStep (chainStep s i) a) b).enc.mem = initHuffTable 16 := hm
  have hm2 : (chainStep (chainStep s i) a).enc.mem = initHuffTable 16 := hm
  -- after the first stage
  have d1 := DiffV.step s.diff i.x i.p i.x i.p i.endd i.valid hx hp hx hp
  rw [hv] at d1
  simp only [DiffV.abs, Difference.step, if_true, List.zipWith_cons_cons, List.zipWith_nil_left, Difference.mk.injEq,
      List.cons.injEq, and_true] at d1
  obtain ⟨⟨f1, -⟩, ⟨f2, -⟩, f3, -⟩ := d1
  have g1 : (chainStep s i).diff.val_out_4 = Difference.diffVal 16 i.x i.p := by rw [← f1]; simp only [chainStep, hv]
  have g2 : (chainStep s i).diff.val_out = Difference.diffMns 16 i.x i.p := by rw [← f2]; simp only [chainStep, hv]
  have g3 : (chainStep s i).diff.valid_out = true := by rw [← f3]; simp only [chainStep, hv]
  generalize chainStep s i = s1 at g1 g2 g3 hm2 hm3
  -- after the second stage
  have n1 := NormV.step s1.norm s1.diff.valid_out s1.diff.end_out s1.diff.val_out s1.diff.val_out_4
  rw [g1, g2, g3] at n1
  simp only [NormV.abs, Normalize.step, if_true, List.zipWith_cons_cons, List.zipWith_nil_left, Normalize.mk.injEq,
      List.cons.injEq, and_true] at n1
  obtain ⟨f1, f2, f3, -⟩ := n1
  have g4 : NormV.top.val_out (chainStep s1 a).norm = Normalize.normVal 16 (Difference.diffVal 16 i.x i.p) (Difference.diffMns 16 i.x i.p) := by
    rw [← f1]; simp only [chainStep, g1, g2, g3]; rfl
  have g5 : NormV.top.ssss (chainStep s1 a).norm = Normalize.normSsss 16 (Difference.diffVal 16 i.x i.p) (Difference.diffMns 16 i.x i.p) := by
    rw [← f2]; simp only [chainStep, g1, g2, g3]; rfl
  have g6 : NormV.top.valid_out (chainStep s1 a).norm = true := by
    rw [← f3]; simp only [chainStep, g1, g2, g3]; rfl
  generalize chainStep s1 a = s2 at g4 g5 g6 hm2 hm3
  -- after the first half of the third stage
  have n2 := EncV.step s2.enc (NormV.top.end_out s2.norm) (NormV.top.valid_out s2.norm) (NormV.top.ssss s2.norm)
    (NormV.top.val_out s2.norm)
  rw [hm2] at n2
  simp only [EncV.abs, Encode.step, List.zipWith_cons_cons, List.zipWith_nil_left, List.map_cons, List.map_nil, Encode.mk.injEq,
    List.cons.injEq, and_true] at n2
  obtain ⟨k1, k2, k3, k4, -⟩ := n2
  have l1 : (chainStep s2 b).enc.u_w9.ssss_late = NormV.top.ssss s2.norm := k1
  have l2 : (chainStep s2 b).enc.u_w9.val_in_late = NormV.top.val_out s2.norm := k2
  have l3 : (chainStep s2 b).enc.mem.getD (chainStep s2 b).enc.r_0_ 0 = (initHuffTable 16).getD (NormV.top.ssss s2.norm) 0 := k3
  have l4 : (chainStep s2 b).enc.u_w9.valid_late = true := by rw [← g6]; exact k4
  generalize chainStep s2 b = s3 at l1 l2 l3 l4 hm3
  have n3 := EncV.step s3.enc (NormV.top.end_out s3.norm) (NormV.top.valid_out s3.norm) (NormV.top.ssss s3.norm)
    (NormV.top.val_out s3.norm)
  simp only [EncV.abs, Encode.step, l1, l2, l3, l4, if_true, List.zipWith_cons_cons, List.zipWith_nil_left, List.map_cons,
    List.map_nil, Encode.mk.injEq, List.cons.injEq, and_true, List.zip_cons_cons, List.zip_nil_left] at n3
  obtain ⟨-, -, -, -, -, m1, m2, -⟩ := n3
  simp only [hwPixel, ← g4, ← g5]
  exact Prod.ext m1 m2

/-- The valid and end flags of a cycle come out with it. -/
theorem chain_flags (ins : List PixIn) (i a b c : PixIn) :
    let e := (chainRun (ins ++ [i, a, b, c])).enc
    EncV.top.valid_out e = i.valid ∧ EncV.top.end_out e = i.endd := by
  rw [show ins ++ [i, a, b, c] = (((ins ++ [i]) ++ [a]) ++ [b]) ++ [c] by simp, chainRun_snoc, chainRun_snoc, chainRun_snoc,
      chainRun_snoc]
  exact ⟨rfl, rfl⟩

/-- The cycle four before the last of a run. -/
theorem four_back {α : Type} (l : List α) (n : Nat) (i : α) (hn : n + 4 = l.length) (hi : l[n]? = some i) :
    ∃ a b c, l = l.take n ++ [i, a, b, c] := by
  have h : (l.drop n).length = 4 := by simp; omega
  have h0 : (l.drop n)[0]? = some i := by rw [List.getElem?_drop]; simpa using hi
  match hd : l.drop n, h, h0 with
  | [x, a, b, c], _, h0 =>
    simp at h0; subst h0
    exact ⟨a, b, c, by rw [← hd, List.take_append_drop]⟩

/-- C87: the chain difference.v, normalize.v, encode.v codes 16-bit pixels with a delay of exactly four cycles, in every
schedule of valid and idle cycles: the valid and end flags come out as they went in, and the code bits of a valid pixel at
most 32768 away from its prediction decode (with the default table, whatever bits follow) to exactly that pixel. -/
theorem C87_coding_lossless (ins : List PixIn) (n : Nat) (i : PixIn) (hn : n + 4 = ins.length) (hi : ins[n]? = some i) :
    let e := (chainRun ins).enc
    EncV.top.valid_out e = i.valid ∧ EncV.top.end_out e = i.endd ∧
    (i.valid = true → i.x < 2 ^ 16 → i.p < 2 ^ 16 → ((i.x : Int) - i.p).natAbs ≤ 32768 →
      ∀ rest, decodePixel defaultTable 17 i.p (toBits (EncV.top.enc_ctr e) (EncV.top.enc_out e) ++ rest) = some (i.x, rest)) := by
  obtain ⟨a, b, c, h⟩ := four_back ins n i hn hi
  rw [h]
  obtain ⟨h1, h2⟩ := chain_flags (ins.take n) i a b c
  refine ⟨h1, h2, fun hv hx hp hd rest => ?_⟩
  have hc := chain_code (ins.take n) i a b c hv hx hp
  rw [Prod.ext_iff] at hc
  rw [show EncV.top.enc_ctr _ = _ from hc.2, show EncV.top.enc_out _ = _ from hc.1]
  exact C02_16bit_lossless_near i.x i.p hx hp hd rest

/-- C87, the limit of it: a pixel further than 32768 from its prediction is never decoded to what it was.  The shipped 16-bit
Verilog of the three blocks is not lossless. -/
theorem C87_coding_wrong_far (ins : List PixIn) (n : Nat) (i : PixIn) (hn : n + 4 = ins.length) (hi : ins[n]? = some i)
    (hv : i.valid = true) (hx : i.x < 2 ^ 16) (hp : i.p < 2 ^ 16) (hd : 32768 < ((i.x : Int) - i.p).natAbs) (rest : List Bool) :
    let e := (chainRun ins).enc
    decodePixel defaultTable 17 i.p (toBits (EncV.top.enc_ctr e) (EncV.top.enc_out e) ++ rest) ≠ some (i.x, rest) := by
  obtain ⟨a, b, c, h⟩ := four_back ins n i hn hi
  rw [h]
  have hc := chain_code (ins.take n) i a b c hv hx hp
  rw [Prod.ext_iff] at hc
  show decodePixel defaultTable 17 i.p (toBits (EncV.top.enc_ctr _) (EncV.top.enc_out _) ++ rest) ≠ _
  rw [show EncV.top.enc_ctr _ = _ from hc.2, show EncV.top.enc_out _ = _ from hc.1]
  exact C02_16bit_wrong_far i.x i.p hx hp hd rest

/-- C87: the same bits are the T.81 code of the difference, so a pixel is coded in at most 31 bits and nothing of a code word is
lost in the five-bit length. -/
theorem C87_coding_bits (ins : List PixIn) (n : Nat) (i : PixIn) (hn : n + 4 = ins.length) (hi : ins[n]? = some i)
    (hv : i.valid = true) (hx : i.x < 2 ^ 16) (hp : i.p < 2 ^ 16) :
    let e := (chainRun ins).enc
    toBits (EncV.top.enc_ctr e) (EncV.top.enc_out e) = pixelBits defaultTable i.x i.p ∧
    EncV.top.enc_out e < 2 ^ EncV.top.enc_ctr e ∧ EncV.top.enc_ctr e ≤ 31 := by
  obtain ⟨a, b, c, h⟩ := four_back ins n i hn hi
  rw [h]
  have hc := chain_code (ins.take n) i a b c hv hx hp
  rw [Prod.ext_iff] at hc
  have hz := C01_code_size 16 i.x i.p (by omega) (by omega) hx hp
  intro e
  have c1 : EncV.top.enc_out e = _ := hc.1
  have c2 : EncV.top.enc_ctr e = _ := hc.2
  rw [c1, c2]
  exact ⟨hwBits_eq (by omega) (by omega) (initHuffTable_rep (by omega)) hx hp, hz.2, by have := hz.1; omega⟩

/-- Non-vacuity: one pixel, three idle cycles. -/
def exChain : List PixIn := [⟨60000, 40000, true, true⟩, ⟨0, 0, false, false⟩, ⟨0, 0, false, false⟩, ⟨0, 0, false, false⟩]

example : (let e := (chainRun exChain).enc
    EncV.top.valid_out e = true ∧ EncV.top.end_out e = true ∧ EncV.top.enc_ctr e = 27 ∧
    toBits 27 (EncV.top.enc_out e) = defaultTable 15 ++ toBits 15 20000) := by decide +kernel

example : exChain[0]? = some ⟨60000, 40000, true, true⟩ ∧ 0 + 4 = exChain.length := ⟨rfl, rfl⟩

/-! ### merge.v -/

/-- C87: in a valid cycle merge.v takes the code of the first pixel followed by that of the second, bit for bit; in an idle cycle
it keeps what it has.  Any codes of at most 31 bits each. -/
theorem C87_merge (s : MergeV.top.S) (x c x' c' : Nat) (e : Bool) (hc : c ≤ 31) (hc' : c' ≤ 31) (hx : x < 2 ^ c) (hx' : x' < 2 ^ c') :
    (let t := MergeV.top.step s c true e x' c' false x
     MergeV.top.valid_out t = true ∧ MergeV.top.end_out t = e ∧ MergeV.top.enc_out_ctr t = c + c' ∧
     MergeV.top.enc_out t < 2 ^ (c + c') ∧
     toBits (MergeV.top.enc_out_ctr t) (MergeV.top.enc_out t) = toBits c x ++ toBits c' x') ∧
    (let t := MergeV.top.step s c false e x' c' false x
     MergeV.top.valid_out t = false ∧ MergeV.top.end_out t = e ∧ MergeV.top.enc_out_ctr t = MergeV.top.enc_out_ctr s ∧
     MergeV.top.enc_out t = MergeV.top.enc_out s) := by
  constructor
  · have hm : (x * 2 ^ c' % 2 ^ 62 ||| x') = x * 2 ^ c' + x' := by
      have h1 : x * 2 ^ c' < 2 ^ (c + c') := by
        rw [Nat.pow_add]; exact Nat.mul_lt_mul_of_pos_right hx (Nat.two_pow_pos c')
      have h2 : 2 ^ (c + c') ≤ 2 ^ 62 := Nat.pow_le_pow_right (by omega) (by omega)
      rw [Nat.mod_eq_of_lt (by omega), Nat.mul_comm, Nat.two_pow_add_eq_or_of_lt hx']
    have hs : (c + c') % 2 ^ 6 = c + c' := by omega
    have hlt : x * 2 ^ c' + x' < 2 ^ (c + c') := by
      rw [Nat.pow_add]
      have : x * 2 ^ c' + 2 ^ c' ≤ 2 ^ c * 2 ^ c' := by
        rw [← Nat.succ_mul]; exact Nat.mul_le_mul_right _ hx
      omega
    simp only [netlist, Bool.false_eq_true, if_false, if_true, hm, hs, true_and]
    refine ⟨hlt, ?_⟩
    rw [← toBits_or_shift hx', Nat.shiftLeft_eq, Nat.mul_comm x, Nat.two_pow_add_eq_or_of_lt hx']
  · simp [netlist]

example : MergeV.top.enc_out (MergeV.top.step MergeV.top.powerUp 3 true false 1 2 false 5) = 0b10101 := by decide

/-! ### The predictors -/

/-- One cycle of input of predictor_p1_c4_px4.v. -/
structure Px4In where
  x0 : Nat
  x1 : Nat
  x2 : Nat
  x3 : Nat
  valid : Bool
  endd : Bool

def Px4In.pixels (i : Px4In) : List Nat := if i.valid then [i.x0, i.x1, i.x2, i.x3] else []

/-- The netlist after the cycles `ins`, with the `new_row` input on in exactly the first valid cycle of each row of `C` steps (and
in the idle cycles before it); `k` counts the valid cycles so far. -/
def px4Run (C : Nat) : Px4V.top.S → Nat → List Px4In → Px4V.top.S
  | s, _, [] => s
  | s, k, i :: r => px4Run C (Px4V.top.step s i.x0 i.x1 i.x2 i.x3 (decide (k % C = 0)) i.endd false i.valid)
      (k + i.valid.toNat) r

theorem px4Run_snoc (C : Nat) (i : Px4In) : ∀ (ins : List Px4In) (s : Px4V.top.S) (k : Nat),
    px4Run C s k (ins ++ [i]) = Px4V.top.step (px4Run C s k ins) i.x0 i.x1 i.x2 i.x3
      (decide ((k + ins.countP (·.valid)) % C = 0)) i.endd false i.valid
  | [], _, _ => rfl
  | j :: r, s, k => by
    simp only [List.cons_append, px4Run]
    rw [px4Run_snoc C i r, List.countP_cons]
    cases j.valid <;> simp [Nat.add_comm, Nat.add_assoc]

theorem px4_rep (C : Nat) (hC : 1 ≤ C) (ins : List Px4In) :
    PredRep 16 4 C (ins.countP (·.valid)) (ins.flatMap (·.pixels)) (.px4 (Px4V.abs (px4Run C Px4V.top.powerUp 0 ins))) ∧
    (ins.flatMap (·.pixels)).length = 4 * ins.countP (·.valid) := by
  induction ins using snoc_induction with
  | h0 => exact ⟨predRep_init (bd := 16) (ps := 4) (C := C) (by omega), rfl⟩
  | h1 ins i ih =>
    obtain ⟨h1, h2⟩ := ih
    rw [px4Run_snoc, Px4V.step, Nat.zero_add, List.countP_append, List.flatMap_append]
    cases hv : i.valid
    · have := predRep_stall (px := [i.x0, i.x1, i.x2, i.x3]) (nr := decide ((ins.countP (·.valid)) % C = 0)) (e := i.endd) h1
      have e1 : [i].flatMap (·.pixels) = [] := by simp [Px4In.pixels, hv]
      have e2 : [i].countP (·.valid) = 0 := by simp [hv]
      rw [e1, e2, List.append_nil]
      exact ⟨this.1, h2⟩
    · have := predRep_step (px := [i.x0, i.x1, i.x2, i.x3]) (e := i.endd) (by omega) h2 rfl h1
      have e1 : [i].flatMap (·.pixels) = [i.x0, i.x1, i.x2, i.x3] := by simp [Px4In.pixels, hv]
      have e2 : [i].countP (·.valid) = 1 := by simp [hv]
      rw [e1, e2]
      refine ⟨this.1, ?_⟩
      rw [List.length_append, h2, Nat.mul_add]; rfl

/-- C87: after a valid cycle predictor_p1_c4_px4.v shows that cycle's four pixels and for each of them the prediction of T.81
predictor 1 with four components (`Spec.pred`), for rows of any number `C` of steps, any number of rows, any idle cycles. -/
theorem C87_predictor_px4 (C : Nat) (hC : 1 ≤ C) (ins : List Px4In) (i : Px4In) (hv : i.valid = true) :
    let s := px4Run C Px4V.top.powerUp 0 (ins ++ [i])
    let before := ins.flatMap (·.pixels)
    s.valid_out = true ∧ s.end_out = i.endd ∧
    [s.pixel_out, s.pixel_out_7, s.pixel_out_8, s.pixel_out_9] = [i.x0, i.x1, i.x2, i.x3] ∧
    [s.predic_out, s.predic_out_4, s.predic_out_5, s.predic_out_6] =
      (List.range 4).map fun j => pred 16 (4 * C) before (before.length + j) := by
  obtain ⟨h1, h2⟩ := px4_rep C hC ins
  have h := predRep_step (px := [i.x0, i.x1, i.x2, i.x3]) (e := i.endd) (by omega) h2 rfl h1
  have hs := px4Run_snoc C i ins Px4V.top.powerUp 0
  have ha := Px4V.step (px4Run C Px4V.top.powerUp 0 ins) i.x0 i.x1 i.x2 i.x3 (decide ((ins.countP (·.valid)) % C = 0)) i.endd true
  rw [Nat.zero_add, hv] at hs
  rw [← hs] at ha
  simp only [Predictor.step, Predictor.pixelsOut, Predictor.predicsOut, Predictor.valid, Predictor.endd, ← ha] at h
  exact ⟨h.2.2.2.1, h.2.2.2.2, h.2.1, h.2.2.1⟩

example : let s := px4Run 1 Px4V.top.powerUp 0 [⟨1, 2, 3, 4, true, false⟩, ⟨9, 9, 9, 9, false, false⟩, ⟨5, 6, 7, 8, true, true⟩]
    [s.predic_out, s.predic_out_4, s.predic_out_5, s.predic_out_6] = [1, 2, 3, 4] := by decide

/-- One cycle of input of predictor_p1_c4_pix1_2.v. -/
structure Pix2In where
  x0 : Nat
  x1 : Nat
  valid : Bool
  endd : Bool

def Pix2In.pixels (i : Pix2In) : List Nat := if i.valid then [i.x0, i.x1] else []

/-- The netlist after the cycles `ins`, with the `new_row` input on in exactly the first valid cycle of each row of `C` steps (and
in the idle cycles before it); `k` counts the valid cycles so far. -/
def pix2Run (C : Nat) : Pix12V.top.S → Nat → List Pix2In → Pix12V.top.S
  | s, _, [] => s
  | s, k, i :: r => pix2Run C (Pix12V.top.step s (decide (k % C = 0)) i.x0 i.x1 i.endd false i.valid) (k + i.valid.toNat) r

theorem pix2Run_snoc (C : Nat) (i : Pix2In) : ∀ (ins : List Pix2In) (s : Pix12V.top.S) (k : Nat),
    pix2Run C s k (ins ++ [i]) = Pix12V.top.step (pix2Run C s k ins)
      (decide ((k + ins.countP (·.valid)) % C = 0)) i.x0 i.x1 i.endd false i.valid
  | [], _, _ => rfl
  | j :: r, s, k => by
    simp only [List.cons_append, pix2Run]
    rw [pix2Run_snoc C i r, List.countP_cons]
    cases j.valid <;> simp [Nat.add_comm, Nat.add_assoc]

theorem pix2_rep (C : Nat) (hC : 2 ≤ C) (ins : List Pix2In) :
    PredRep 16 2 C (ins.countP (·.valid)) (ins.flatMap (·.pixels)) (.pix12 (Pix12V.abs (pix2Run C Pix12V.top.powerUp 0 ins))) ∧
    (ins.flatMap (·.pixels)).length = 2 * ins.countP (·.valid) := by
  induction ins using snoc_induction with
  | h0 => exact ⟨predRep_init (bd := 16) (ps := 2) (C := C) (by omega), rfl⟩
  | h1 ins i ih =>
    obtain ⟨h1, h2⟩ := ih
    rw [pix2Run_snoc, Pix12V.step, Nat.zero_add, List.countP_append, List.flatMap_append]
    cases hv : i.valid
    · have := predRep_stall (px := [i.x0, i.x1]) (nr := decide ((ins.countP (·.valid)) % C = 0)) (e := i.endd) h1
      have e1 : [i].flatMap (·.pixels) = [] := by simp [Pix2In.pixels, hv]
      have e2 : [i].countP (·.valid) = 0 := by simp [hv]
      rw [e1, e2, List.append_nil]
      exact ⟨this.1, h2⟩
    · have := predRep_step (px := [i.x0, i.x1]) (e := i.endd) (by omega) h2 rfl h1
      have e1 : [i].flatMap (·.pixels) = [i.x0, i.x1] := by simp [Pix2In.pixels, hv]
      have e2 : [i].countP (·.valid) = 1 := by simp [hv]
      rw [e1, e2]
      refine ⟨this.1, ?_⟩
      rw [List.length_append, h2, Nat.mul_add]; rfl

/-- C87: after a valid cycle predictor_p1_c4_pix1_2.v (two pixels per cycle) shows that cycle's two pixels and for each of them the
prediction of T.81 predictor 1 with four components (`Spec.pred`), for rows of any number `C` of steps (at least two), any
number of rows, any idle cycles. -/
theorem C87_predictor_pix2 (C : Nat) (hC : 2 ≤ C) (ins : List Pix2In) (i : Pix2In) (hv : i.valid = true) :
    let s := pix2Run C Pix12V.top.powerUp 0 (ins ++ [i])
    let before := ins.flatMap (·.pixels)
    s.valid_out = true ∧ s.end_out = i.endd ∧ [s.pixel_out, s.pixel_out_2] = [i.x0, i.x1] ∧
    [s.predic_out, s.predic_out_3] = (List.range 2).map fun j => pred 16 (2 * C) before (before.length + j) := by
  obtain ⟨h1, h2⟩ := pix2_rep C hC ins
  have h := predRep_step (px := [i.x0, i.x1]) (e := i.endd) (by omega) h2 rfl h1
  have hs := pix2Run_snoc C i ins Pix12V.top.powerUp 0
  have ha := Pix12V.step (pix2Run C Pix12V.top.powerUp 0 ins) (decide ((ins.countP (·.valid)) % C = 0)) i.x0 i.x1 i.endd true
  rw [Nat.zero_add, hv] at hs
  rw [← hs] at ha
  simp only [Predictor.step, Predictor.pixelsOut, Predictor.predicsOut, Predictor.valid, Predictor.endd, ← ha] at h
  exact ⟨h.2.2.2.1, h.2.2.2.2, h.2.1, h.2.2.1⟩

example : let s := pix2Run 2 Pix12V.top.powerUp 0 [⟨1, 2, true, false⟩, ⟨3, 4, true, false⟩, ⟨9, 9, false, false⟩, ⟨5, 6, true, true⟩]
    [s.predic_out, s.predic_out_3] = [1, 2] := by decide

/-! ### converter.v: words of at most 62 bits into pieces of at most 36 -/

/-- The netlist under the cycles `ins`. -/
def convNet : ConvV.top.S → List ConvIn → List ConvV.top.S
  | _, [] => []
  | s, i :: r => s :: convNet (ConvV.top.step s i.valid i.code.enc i.code.ctr i.code.endd false i.full) r

/-- Code words the netlist takes: shown valid while its `latch_output` is on. -/
def convTaken (s : ConvV.top.S) (ins : List ConvIn) : List Code :=
  ((convNet s ins).zip ins).flatMap fun q => if q.1.latch_output && q.2.valid then [q.2.code] else []

/-- Pieces the netlist writes: its outputs while `valid_in` is on. -/
def convGiven (s : ConvV.top.S) (ins : List ConvIn) : List Code :=
  (convNet s ins).flatMap fun t => if t.valid_in then [⟨t.enc_in, t.enc_in_ctr, t.in_end⟩] else []

theorem conv_net (ins : List ConvIn) : ∀ (s : ConvV.top.S), ConvV.Wf s → (∀ i ∈ ins, i.code.ctr < 2 ^ 6) →
    convTaken s ins = convIn 62 36 (ConvV.abs s) ins ∧ convGiven s ins = convOut 62 36 (ConvV.abs s) ins := by
  induction ins with
  | nil => intro s _ _; exact ⟨rfl, rfl⟩
  | cons i r ih =>
    intro s h hi
    obtain ⟨h1, h2⟩ := ih _ (ConvV.wf s i.valid i.code.enc i.code.ctr i.code.endd false i.full h (hi i (by simp)))
      (fun j hj => hi j (by simp [hj]))
    rw [ConvV.step s i.valid i.code.enc i.code.ctr i.code.endd i.full h] at h1 h2
    constructor
    · simp only [convTaken, convNet, List.zip_cons_cons, List.flatMap_cons, convIn] at h1 ⊢
      rw [h1]; rfl
    · simp only [convGiven, convNet, List.flatMap_cons, convOut] at h2 ⊢
      rw [h2]; rfl

/-- C87: for every history of the two neighbouring FIFOs, every piece converter.v writes has between 1 and 36 bits, and the bits
(and end marks) of the pieces written, followed by those still inside, are exactly the bits (and end marks) of the words
taken. -/
theorem C87_converter (ins : List ConvIn)
    (hin : ∀ i ∈ ins, i.code.ctr < 2 ^ 6 ∧ (i.valid = true → i.code.enc < 2 ^ i.code.ctr ∧ 0 < i.code.ctr ∧ i.code.ctr ≤ 62)) :
    (∃ inside, markedStream (convGiven ConvV.top.powerUp ins) ++ inside = markedStream (convTaken ConvV.top.powerUp ins)) ∧
    (∀ p ∈ convGiven ConvV.top.powerUp ins, 0 < p.ctr ∧ p.ctr ≤ 36) := by
  obtain ⟨h1, h2⟩ := ConvV.init _ ConvV.top.powerUp_init
  obtain ⟨h3, h4⟩ := conv_net ins _ h1 (fun i hi => (hin i hi).1)
  rw [h3, h4, h2]
  exact C13_converter_keeps_stream 62 36 (by omega) ins (fun i hi => (hin i hi).2)

example : convGiven ConvV.top.powerUp ((List.replicate 3 ⟨⟨2 ^ 40 + 5, 41, true⟩, true, false⟩) ++
      List.replicate 3 ⟨⟨0, 0, false⟩, false, false⟩) = [⟨16, 5, false⟩, ⟨5, 36, true⟩, ⟨16, 5, false⟩] := by decide

/-! ### lj92_pipeline_fifo.v: 128 words -/

/-- One cycle of input of lj92_pipeline_fifo.v: the word offered and whether it is (`valid_in`), and whether the shown one is taken. -/
structure PipeIn where
  code : Code
  valid : Bool
  latch : Bool

/-- The netlist after the cycles. -/
def pipeRun : PipeFifoV.top.S → List PipeIn → PipeFifoV.top.S
  | s, [] => s
  | s, i :: r => pipeRun (PipeFifoV.top.step s i.code.enc i.code.ctr i.code.endd i.latch false i.valid) r

/-- The words the netlist accepts: offered while there is room (`writable`). -/
def pipeAccepted : PipeFifoV.top.S → List PipeIn → List Code
  | _, [] => []
  | s, i :: r => (if i.valid && PipeFifoV.fifo.writable s.u_fifo then [i.code] else []) ++
      pipeAccepted (PipeFifoV.top.step s i.code.enc i.code.ctr i.code.endd i.latch false i.valid) r

/-- The words taken from the netlist: shown (`valid_out`) and latched. -/
def pipeTaken : PipeFifoV.top.S → List PipeIn → List Code
  | _, [] => []
  | s, i :: r => (if i.latch && PipeFifoV.top.valid_out s then [⟨PipeFifoV.top.enc_out s, PipeFifoV.top.enc_out_ctr s, PipeFifoV.top.out_end s⟩] else []) ++
      pipeTaken (PipeFifoV.top.step s i.code.enc i.code.ctr i.code.endd i.latch false i.valid) r

/-- The cycle as an input of the model's FIFO. -/
def PipeIn.word (i : PipeIn) : FifoIn := ⟨i.valid, Code.pack 62 i.code, i.latch⟩

theorem pipe_net (ins : List PipeIn) : ∀ (s : PipeFifoV.top.S), PipeFifoV.Wf s → (∀ i ∈ ins, i.code.enc < 2 ^ 62 ∧ i.code.ctr < 2 ^ 6) →
    (pipeAccepted s ins).map (Code.pack 62) = fifoIn 128 (PipeFifoV.abs s) (ins.map PipeIn.word) ∧
    pipeTaken s ins = (fifoOut 128 (PipeFifoV.abs s) (ins.map PipeIn.word)).map (Code.unpack 62) ∧
    PipeFifoV.abs (pipeRun s ins) = runFifo 128 (PipeFifoV.abs s) (ins.map PipeIn.word) ∧ PipeFifoV.Wf (pipeRun s ins) := by
  induction ins with
  | nil => intro s h _; exact ⟨rfl, rfl, rfl, h⟩
  | cons i r ih =>
    intro s h hi
    have hb := hi i (by simp)
    obtain ⟨h1, h2, h3, h4⟩ := ih _ (PipeFifoV.wf s i.code.enc i.code.ctr i.code.endd i.latch false i.valid h)
      (fun j hj => hi j (by simp [hj]))
    rw [PipeFifoV.step s i.code.enc i.code.ctr i.code.endd i.latch i.valid h hb.1 hb.2] at h1 h2 h3
    refine ⟨?_, ?_, ?_, h4⟩
    · simp only [pipeAccepted, List.map_append, h1, List.map_cons, fifoIn]
      have hw : PipeFifoV.fifo.writable s.u_fifo = (PipeFifoV.abs s).writable 128 := rfl
      rw [hw]
      simp only [PipeIn.word]
      by_cases hh : (i.valid && (PipeFifoV.abs s).writable 128) = true <;> simp only [hh] <;> rfl
    · simp only [pipeTaken, h2, List.map_cons, fifoOut, List.map_append, PipeFifoV.out]
      have hw : PipeFifoV.top.valid_out s = (PipeFifoV.abs s).readable := rfl
      rw [hw]
      simp only [PipeIn.word]
      by_cases hh : (i.latch && (PipeFifoV.abs s).readable) = true <;> simp only [hh] <;> rfl
    · exact h3

theorem pipe_ok (ins : List PipeIn) : ∀ (s : PipeFifoV.top.S), (∀ i ∈ ins, i.code.enc < 2 ^ 62 ∧ i.code.ctr < 2 ^ 6) →
    ∀ w ∈ pipeAccepted s ins, w.enc < 2 ^ 62 ∧ w.ctr < 2 ^ 6 := by
  induction ins with
  | nil => intro s _ w hw; cases hw
  | cons i r ih =>
    intro s hi w hw
    simp only [pipeAccepted, List.mem_append] at hw
    rcases hw with hw | hw
    · split at hw
      · simp at hw; subst hw; exact hi i (by simp)
      · cases hw
    · exact ih _ (fun j hj => hi j (by simp [hj])) w hw

/-- C87: for every history of offers and takes from power-up, the words taken from lj92_pipeline_fifo.v are, in order and unchanged (bits,
length, end flag), the words it accepted, except the last ones, which are still inside and as many as its level says; and a word
is refused only when 127 words or more are inside. -/
theorem C87_pipefifo (ins : List PipeIn) (hin : ∀ i ∈ ins, i.code.enc < 2 ^ 62 ∧ i.code.ctr < 2 ^ 6) :
    (∃ inside, pipeTaken PipeFifoV.top.powerUp ins ++ inside = pipeAccepted PipeFifoV.top.powerUp ins ∧
      inside.length = PipeFifoV.top.fifo_level (pipeRun PipeFifoV.top.powerUp ins)) ∧
    (PipeFifoV.fifo.writable (pipeRun PipeFifoV.top.powerUp ins).u_fifo = false → 127 ≤ PipeFifoV.top.fifo_level (pipeRun PipeFifoV.top.powerUp ins)) := by
  obtain ⟨i1, i2⟩ := PipeFifoV.init _ PipeFifoV.top.powerUp_init
  obtain ⟨h1, h2, h3, h4⟩ := pipe_net ins _ i1 hin
  have hok := pipe_ok ins PipeFifoV.top.powerUp hin
  rw [PipeFifoV.level _ h4, h3, i2]
  rw [i2] at h1 h2
  obtain ⟨inside, e1, e2⟩ := C11_fifo_order 128 (by omega) (List.replicate 127 0) PipeFifoV.top.powerUp.u_fifo.u_unbuffered.r_0_ (by simp)
    (ins.map PipeIn.word)
  obtain ⟨_, e3⟩ := C11_fifo_capacity 128 (by omega) (List.replicate 127 0) PipeFifoV.top.powerUp.u_fifo.u_unbuffered.r_0_ (by simp)
    (ins.map PipeIn.word)
  refine ⟨⟨inside.map (Code.unpack 62), ?_, by simpa using e2⟩, ?_⟩
  · rw [h2, ← List.map_append, e1, ← h1, List.map_map]
    conv => rhs; rw [← List.map_id (pipeAccepted PipeFifoV.top.powerUp ins)]
    apply List.map_congr_left
    intro w hw
    obtain ⟨a, b⟩ := hok w hw
    have hb : bitsFor 62 = 6 := by decide
    obtain ⟨we, wc, wd⟩ := w
    dsimp only at a b
    simp only [Function.comp, id, Code.unpack, Code.pack, hb, Code.mk.injEq]
    cases wd <;> refine ⟨?_, ?_, ?_⟩ <;> simp [Nat.testBit_eq_decide_div_mod_eq] <;> omega
  · intro hw
    apply e3
    rw [← i2, ← h3]; exact hw

/-- What a cycle does to the level. -/
theorem pipe_level_step (s : PipeFifoV.top.S) (i : PipeIn) (h : PipeFifoV.Wf s) :
    PipeFifoV.top.fifo_level (PipeFifoV.top.step s i.code.enc i.code.ctr i.code.endd i.latch false i.valid) ≤ PipeFifoV.top.fifo_level s + i.valid.toNat := by
  rw [PipeFifoV.level _ h, PipeFifoV.level _ (PipeFifoV.wf _ _ _ _ _ _ _ h)]
  have hs := PipeFifoV.unbuffered_step s.u_fifo.u_unbuffered i.valid (PipeFifoV.fifo.unbuffered_re s.u_fifo i.latch)
    (PipeFifoV.top.fifo_din s i.code.enc i.code.ctr i.code.endd) h
  have hl : (PipeFifoV.abs (PipeFifoV.top.step s i.code.enc i.code.ctr i.code.endd i.latch false i.valid)).inner =
    (PipeFifoV.abs s).inner.step 127 i.valid (PipeFifoV.top.fifo_din s i.code.enc i.code.ctr i.code.endd) ((PipeFifoV.abs s).innerRe i.latch) := hs
  have hr : (PipeFifoV.abs (PipeFifoV.top.step s i.code.enc i.code.ctr i.code.endd i.latch false i.valid)).readable =
    if (PipeFifoV.abs s).innerRe i.latch then true else if i.latch then false else (PipeFifoV.abs s).readable := rfl
  generalize PipeFifoV.abs s = f at hl hr
  simp only [Fifo.level, hl, hr, SyncFifo.step, Fifo.innerRe, SyncFifo.readable, SyncFifo.writable]
  by_cases z : f.inner.level = 0 <;> by_cases w : f.inner.level = 127 <;> rcases Bool.eq_false_or_eq_true f.readable with a | a <;>
    rcases Bool.eq_false_or_eq_true i.latch with b | b <;> rcases Bool.eq_false_or_eq_true i.valid with c | c <;>
    simp [z, w, a, b, c] <;> omega

theorem pipe_room (ins : List PipeIn) : ∀ (s : PipeFifoV.top.S), PipeFifoV.Wf s → PipeFifoV.top.fifo_level s + ins.countP (·.valid) ≤ 127 →
    pipeAccepted s ins = (ins.filter (·.valid)).map (·.code) := by
  induction ins with
  | nil => intro s _ _; rfl
  | cons i r ih =>
    intro s h hl
    have h1 := pipe_level_step s i h
    rw [List.countP_cons] at hl
    have ih' := ih _ (PipeFifoV.wf s i.code.enc i.code.ctr i.code.endd i.latch false i.valid h) (by cases hv : i.valid <;> simp [hv] at hl h1 ⊢ <;> omega)
    simp only [pipeAccepted, ih', List.filter_cons]
    cases hv : i.valid
    · simp
    · have hw : PipeFifoV.fifo.writable s.u_fifo = true := by
        have : PipeFifoV.fifo.writable s.u_fifo = (s.u_fifo.u_unbuffered.level != 127) := rfl
        rw [this]
        have h2 := PipeFifoV.level s h
        simp only [Fifo.level, PipeFifoV.abs, PipeFifoV.absSync] at h2
        simp [hv] at hl
        simp; omega
      simp [hw]

/-- C87: lj92_pipeline_fifo.v warns early enough.  After any history, if `close_full` is off then the next 9 words offered are all accepted, however
the cycles in between look. -/
theorem C87_pipefifo_warning (ins : List PipeIn) (i : PipeIn) (more : List PipeIn) :
    let s := pipeRun PipeFifoV.top.powerUp (ins ++ [i])
    s.close_full = false → more.countP (·.valid) ≤ 9 → pipeAccepted s more = (more.filter (·.valid)).map (·.code) := by
  intro s hc hm
  have run_snoc : ∀ (l : List PipeIn) (t : PipeFifoV.top.S), pipeRun t (l ++ [i]) =
      PipeFifoV.top.step (pipeRun t l) i.code.enc i.code.ctr i.code.endd i.latch false i.valid := by
    intro l
    induction l with
    | nil => intro t; rfl
    | cons j r ih => intro t; exact ih _
  have run_wf : ∀ (l : List PipeIn) (t : PipeFifoV.top.S), PipeFifoV.Wf t → PipeFifoV.Wf (pipeRun t l) := by
    intro l
    induction l with
    | nil => intro t h; exact h
    | cons j r ih => intro t h; exact ih _ (PipeFifoV.wf _ _ _ _ _ _ _ h)
  have w0 := run_wf ins _ (PipeFifoV.init _ PipeFifoV.top.powerUp_init).1
  have e : s = _ := run_snoc ins _
  have hf := PipeFifoV.full_step (pipeRun PipeFifoV.top.powerUp ins) i.code.enc i.code.ctr i.code.endd i.latch i.valid w0
  rw [← e, hc, ← PipeFifoV.level _ w0] at hf
  have hlt : PipeFifoV.top.fifo_level (pipeRun PipeFifoV.top.powerUp ins) < 118 := by simpa using hf.symm
  have hs := pipe_level_step (pipeRun PipeFifoV.top.powerUp ins) i w0
  rw [← e] at hs
  have := Bool.toNat_le i.valid
  exact pipe_room more s (by rw [e]; exact PipeFifoV.wf _ _ _ _ _ _ _ w0) (by omega)

example : (pipeRun PipeFifoV.top.powerUp (List.replicate 117 ⟨⟨1, 1, false⟩, true, false⟩ ++ [⟨⟨1, 1, false⟩, true, false⟩])).close_full = false := by
  decide +kernel

example : pipeTaken PipeFifoV.top.powerUp [⟨⟨5, 3, true⟩, true, false⟩, ⟨⟨6, 3, false⟩, true, false⟩, ⟨⟨0, 0, false⟩, false, true⟩,
    ⟨⟨0, 0, false⟩, false, true⟩] = [⟨5, 3, true⟩, ⟨6, 3, false⟩] := by decide +kernel

/-! ### converter_fifo.v: 128 words -/

/-- One cycle of input of converter_fifo.v: the word offered and whether it is (`valid_in`), and whether the shown one is taken. -/
structure CvIn where
  code : Code
  valid : Bool
  latch : Bool

/-- The netlist after the cycles. -/
def cvRun : ConvFifoV.top.S → List CvIn → ConvFifoV.top.S
  | s, [] => s
  | s, i :: r => cvRun (ConvFifoV.top.step s i.code.enc i.code.ctr i.code.endd i.latch false i.valid) r

/-- The words the netlist accepts: offered while there is room (`writable`). -/
def cvAccepted : ConvFifoV.top.S → List CvIn → List Code
  | _, [] => []
  | s, i :: r => (if i.valid && ConvFifoV.fifo.writable s.u_fifo then [i.code] else []) ++
      cvAccepted (ConvFifoV.top.step s i.code.enc i.code.ctr i.code.endd i.latch false i.valid) r

/-- The words taken from the netlist: shown (`valid_out`) and latched. -/
def cvTaken : ConvFifoV.top.S → List CvIn → List Code
  | _, [] => []
  | s, i :: r => (if i.latch && ConvFifoV.top.valid_out s then [⟨ConvFifoV.top.enc_out s, ConvFifoV.top.enc_out_ctr s, ConvFifoV.top.out_end s⟩] else []) ++
      cvTaken (ConvFifoV.top.step s i.code.enc i.code.ctr i.code.endd i.latch false i.valid) r

/-- The cycle as an input of the model's FIFO. -/
def CvIn.word (i : CvIn) : FifoIn := ⟨i.valid, Code.pack 36 i.code, i.latch⟩

theorem cv_net (ins : List CvIn) : ∀ (s : ConvFifoV.top.S), ConvFifoV.Wf s → (∀ i ∈ ins, i.code.enc < 2 ^ 36 ∧ i.code.ctr < 2 ^ 6) →
    (cvAccepted s ins).map (Code.pack 36) = fifoIn 128 (ConvFifoV.abs s) (ins.map CvIn.word) ∧
    cvTaken s ins = (fifoOut 128 (ConvFifoV.abs s) (ins.map CvIn.word)).map (Code.unpack 36) ∧
    ConvFifoV.abs (cvRun s ins) = runFifo 128 (ConvFifoV.abs s) (ins.map CvIn.word) ∧ ConvFifoV.Wf (cvRun s ins) := by
  induction ins with
  | nil => intro s h _; exact ⟨rfl, rfl, rfl, h⟩
  | cons i r ih =>
    intro s h hi
    have hb := hi i (by simp)
    obtain ⟨h1, h2, h3, h4⟩ := ih _ (ConvFifoV.wf s i.code.enc i.code.ctr i.code.endd i.latch false i.valid h)
      (fun j hj => hi j (by simp [hj]))
    rw [ConvFifoV.step s i.code.enc i.code.ctr i.code.endd i.latch i.valid h hb.1 hb.2] at h1 h2 h3
    refine ⟨?_, ?_, ?_, h4⟩
    · simp only [cvAccepted, List.map_append, h1, List.map_cons, fifoIn]
      have hw : ConvFifoV.fifo.writable s.u_fifo = (ConvFifoV.abs s).writable 128 := rfl
      rw [hw]
      simp only [CvIn.word]
      by_cases hh : (i.valid && (ConvFifoV.abs s).writable 128) = true <;> simp only [hh] <;> rfl
    · simp only [cvTaken, h2, List.map_cons, fifoOut, List.map_append, ConvFifoV.out]
      have hw : ConvFifoV.top.valid_out s = (ConvFifoV.abs s).readable := rfl
      rw [hw]
      simp only [CvIn.word]
      by_cases hh : (i.latch && (ConvFifoV.abs s).readable) = true <;> simp only [hh] <;> rfl
    · exact h3

theorem cv_ok (ins : List CvIn) : ∀ (s : ConvFifoV.top.S), (∀ i ∈ ins, i.code.enc < 2 ^ 36 ∧ i.code.ctr < 2 ^ 6) →
    ∀ w ∈ cvAccepted s ins, w.enc < 2 ^ 36 ∧ w.ctr < 2 ^ 6 := by
  induction ins with
  | nil => intro s _ w hw; cases hw
  | cons i r ih =>
    intro s hi w hw
    simp only [cvAccepted, List.mem_append] at hw
    rcases hw with hw | hw
    · split at hw
      · simp at hw; subst hw; exact hi i (by simp)
      · cases hw
    · exact ih _ (fun j hj => hi j (by simp [hj])) w hw

/-- C87: for every history of offers and takes from power-up, the words taken from converter_fifo.v are, in order and unchanged (bits,
length, end flag), the words it accepted, except the last ones, which are still inside and as many as its level says; and a word
is refused only when 127 words or more are inside. -/
theorem C87_cvfifo (ins : List CvIn) (hin : ∀ i ∈ ins, i.code.enc < 2 ^ 36 ∧ i.code.ctr < 2 ^ 6) :
    (∃ inside, cvTaken ConvFifoV.top.powerUp ins ++ inside = cvAccepted ConvFifoV.top.powerUp ins ∧
      inside.length = ConvFifoV.top.fifo_level (cvRun ConvFifoV.top.powerUp ins)) ∧
    (ConvFifoV.fifo.writable (cvRun ConvFifoV.top.powerUp ins).u_fifo = false → 127 ≤ ConvFifoV.top.fifo_level (cvRun ConvFifoV.top.powerUp ins)) := by
  obtain ⟨i1, i2⟩ := ConvFifoV.init _ ConvFifoV.top.powerUp_init
  obtain ⟨h1, h2, h3, h4⟩ := cv_net ins _ i1 hin
  have hok := cv_ok ins ConvFifoV.top.powerUp hin
  rw [ConvFifoV.level _ h4, h3, i2]
  rw [i2] at h1 h2
  obtain ⟨inside, e1, e2⟩ := C11_fifo_order 128 (by omega) (List.replicate 127 0) ConvFifoV.top.powerUp.u_fifo.u_unbuffered.r_0_ (by simp)
    (ins.map CvIn.word)
  obtain ⟨_, e3⟩ := C11_fifo_capacity 128 (by omega) (List.replicate 127 0) ConvFifoV.top.powerUp.u_fifo.u_unbuffered.r_0_ (by simp)
    (ins.map CvIn.word)
  refine ⟨⟨inside.map (Code.unpack 36), ?_, by simpa using e2⟩, ?_⟩
  · rw [h2, ← List.map_append, e1, ← h1, List.map_map]
    conv => rhs; rw [← List.map_id (cvAccepted ConvFifoV.top.powerUp ins)]
    apply List.map_congr_left
    intro w hw
    obtain ⟨a, b⟩ := hok w hw
    have hb : bitsFor 36 = 6 := by decide
    obtain ⟨we, wc, wd⟩ := w
    dsimp only at a b
    simp only [Function.comp, id, Code.unpack, Code.pack, hb, Code.mk.injEq]
    cases wd <;> refine ⟨?_, ?_, ?_⟩ <;> simp [Nat.testBit_eq_decide_div_mod_eq] <;> omega
  · intro hw
    apply e3
    rw [← i2, ← h3]; exact hw

/-- What a cycle does to the level. -/
theorem cv_level_step (s : ConvFifoV.top.S) (i : CvIn) (h : ConvFifoV.Wf s) :
    ConvFifoV.top.fifo_level (ConvFifoV.top.step s i.code.enc i.code.ctr i.code.endd i.latch false i.valid) ≤ ConvFifoV.top.fifo_level s + i.valid.toNat := by
  rw [ConvFifoV.level _ h, ConvFifoV.level _ (ConvFifoV.wf _ _ _ _ _ _ _ h)]
  have hs := ConvFifoV.unbuffered_step s.u_fifo.u_unbuffered i.valid (ConvFifoV.fifo.unbuffered_re s.u_fifo i.latch)
    (ConvFifoV.top.fifo_din s i.code.enc i.code.ctr i.code.endd) h
  have hl : (ConvFifoV.abs (ConvFifoV.top.step s i.code.enc i.code.ctr i.code.endd i.latch false i.valid)).inner =
    (ConvFifoV.abs s).inner.step 127 i.valid (ConvFifoV.top.fifo_din s i.code.enc i.code.ctr i.code.endd) ((ConvFifoV.abs s).innerRe i.latch) := hs
  have hr : (ConvFifoV.abs (ConvFifoV.top.step s i.code.enc i.code.ctr i.code.endd i.latch false i.valid)).readable =
    if (ConvFifoV.abs s).innerRe i.latch then true else if i.latch then false else (ConvFifoV.abs s).readable := rfl
  generalize ConvFifoV.abs s = f at hl hr
  simp only [Fifo.level, hl, hr, SyncFifo.step, Fifo.innerRe, SyncFifo.readable, SyncFifo.writable]
  by_cases z : f.inner.level = 0 <;> by_cases w : f.inner.level = 127 <;> rcases Bool.eq_false_or_eq_true f.readable with a | a <;>
    rcases Bool.eq_false_or_eq_true i.latch with b | b <;> rcases Bool.eq_false_or_eq_true i.valid with c | c <;>
    simp [z, w, a, b, c] <;> omega

theorem cv_room (ins : List CvIn) : ∀ (s : ConvFifoV.top.S), ConvFifoV.Wf s → ConvFifoV.top.fifo_level s + ins.countP (·.valid) ≤ 127 →
    cvAccepted s ins = (ins.filter (·.valid)).map (·.code) := by
  induction ins with
  | nil => intro s _ _; rfl
  | cons i r ih =>
    intro s h hl
    have h1 := cv_level_step s i h
    rw [List.countP_cons] at hl
    have ih' := ih _ (ConvFifoV.wf s i.code.enc i.code.ctr i.code.endd i.latch false i.valid h) (by cases hv : i.valid <;> simp [hv] at hl h1 ⊢ <;> omega)
    simp only [cvAccepted, ih', List.filter_cons]
    cases hv : i.valid
    · simp
    · have hw : ConvFifoV.fifo.writable s.u_fifo = true := by
        have : ConvFifoV.fifo.writable s.u_fifo = (s.u_fifo.u_unbuffered.level != 127) := rfl
        rw [this]
        have h2 := ConvFifoV.level s h
        simp only [Fifo.level, ConvFifoV.abs, ConvFifoV.absSync] at h2
        simp [hv] at hl
        simp; omega
      simp [hw]

/-- C87: converter_fifo.v warns early enough.  After any history, if `close_full` is off then the next 4 words offered are all accepted, however
the cycles in between look. -/
theorem C87_cvfifo_warning (ins : List CvIn) (i : CvIn) (more : List CvIn) :
    let s := cvRun ConvFifoV.top.powerUp (ins ++ [i])
    s.close_full = false → more.countP (·.valid) ≤ 4 → cvAccepted s more = (more.filter (·.valid)).map (·.code) := by
  intro s hc hm
  have run_snoc : ∀ (l : List CvIn) (t : ConvFifoV.top.S), cvRun t (l ++ [i]) =
      ConvFifoV.top.step (cvRun t l) i.code.enc i.code.ctr i.code.endd i.latch false i.valid := by
    intro l
    induction l with
    | nil => intro t; rfl
    | cons j r ih => intro t; exact ih _
  have run_wf : ∀ (l : List CvIn) (t : ConvFifoV.top.S), ConvFifoV.Wf t → ConvFifoV.Wf (cvRun t l) := by
    intro l
    induction l with
    | nil => intro t h; exact h
    | cons j r ih => intro t h; exact ih _ (ConvFifoV.wf _ _ _ _ _ _ _ h)
  have w0 := run_wf ins _ (ConvFifoV.init _ ConvFifoV.top.powerUp_init).1
  have e : s = _ := run_snoc ins _
  have hf := ConvFifoV.full_step (cvRun ConvFifoV.top.powerUp ins) i.code.enc i.code.ctr i.code.endd i.latch i.valid w0
  rw [← e, hc, ← ConvFifoV.level _ w0] at hf
  have hlt : ConvFifoV.top.fifo_level (cvRun ConvFifoV.top.powerUp ins) < 123 := by simpa using hf.symm
  have hs := cv_level_step (cvRun ConvFifoV.top.powerUp ins) i w0
  rw [← e] at hs
  have := Bool.toNat_le i.valid
  exact cv_room more s (by rw [e]; exact ConvFifoV.wf _ _ _ _ _ _ _ w0) (by omega)

example : (cvRun ConvFifoV.top.powerUp (List.replicate 117 ⟨⟨1, 1, false⟩, true, false⟩ ++ [⟨⟨1, 1, false⟩, true, false⟩])).close_full = false := by
  decide +kernel

example : cvTaken ConvFifoV.top.powerUp [⟨⟨5, 3, true⟩, true, false⟩, ⟨⟨6, 3, false⟩, true, false⟩, ⟨⟨0, 0, false⟩, false, true⟩,
    ⟨⟨0, 0, false⟩, false, true⟩] = [⟨5, 3, true⟩, ⟨6, 3, false⟩] := by decide +kernel

/-! ### register_file.v -/

/-- C87: from the first cycle without reset on, register_file.v answers 4096 columns, 3072 rows and 6666000 allowed cycles. -/
theorem C87_register_file (s : RegFileV.top.S) :
    let t := RegFileV.top.step s false
    RegFileV.top.width t = 4096 ∧ RegFileV.top.height t = 3072 ∧ RegFileV.top.allowed_cycles t = 6666000 := ⟨rfl, rfl, rfl⟩

end Props.NetBlocks
