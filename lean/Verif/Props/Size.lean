/-
Property theorems C92: how long the code of an image and a frame of the beta core can be.
-/
import Verif.Props.Budget
import Verif.Props.Netlist
import Verif.Proof.Lj92Wr
import Verif.Proof.BackEnd

set_option autoImplicit false

namespace Props.Size
open Spec Model
open Model.Lj92.Enc (byteBits_length)
open Model.Back (stuff_length)

/-- No difference of up to `bd` bits has a code of more than `L` bits. -/
def AtMost (T : Table) (bd L : Nat) : Prop := ∀ s, s ≤ bd → (T s).length + (if s = 16 then 0 else s) ≤ L

/-- No difference of up to `bd` bits has a code of fewer than `m` bits. -/
def AtLeast (T : Table) (bd m : Nat) : Prop := ∀ s, s ≤ bd → m ≤ (T s).length + (if s = 16 then 0 else s)

/-- Every code word up to class `bd` contains a zero. -/
def HasZero (T : Table) (bd : Nat) : Prop := ∀ s, s ≤ bd → false ∈ T s

theorem diffBits_length (T : Table) (d : Int) : (diffBits T d).length = (T (cls d)).length + (if cls d = 16 then 0 else cls d) := by
  unfold diffBits
  rw [List.length_append]
  split <;> simp

theorem cls_image {bd W : Nat} (hbd : 0 < bd) {l : List Nat} (hl : ∀ x ∈ l, x < 2 ^ bd) {i : Nat} (hi : i < l.length) :
    cls ((l.getD i 0 : Int) - (pred bd W l i : Int)) ≤ bd := by
  have h1 := pred_lt (W := W) hbd hl i
  have h2 : l.getD i 0 < 2 ^ bd := by
    rw [List.getD_eq_getElem?_getD, List.getElem?_eq_getElem hi]; exact hl _ (List.getElem_mem hi)
  refine cls_le ?_
  generalize 2 ^ bd = N at *
  omega

theorem flat_le {f : Nat → List Bool} {k : Nat} : ∀ n, (∀ i, i < n → (f i).length ≤ k) → ((List.range n).flatMap f).length ≤ k * n
  | 0, _ => by simp
  | n + 1, h => by
    have h1 := flat_le n (fun i hi => h i (by omega))
    have h2 := h n (by omega)
    rw [List.range_succ, List.flatMap_append, List.length_append, Nat.mul_succ]
    simp only [List.flatMap_cons, List.flatMap_nil, List.append_nil]
    omega

theorem flat_ge {f : Nat → List Bool} {k : Nat} : ∀ n, (∀ i, i < n → k ≤ (f i).length) → k * n ≤ ((List.range n).flatMap f).length
  | 0, _ => by simp
  | n + 1, h => by
    have h1 := flat_ge n (fun i hi => h i (by omega))
    have h2 := h n (by omega)
    rw [List.range_succ, List.flatMap_append, List.length_append, Nat.mul_succ]
    simp only [List.flatMap_cons, List.flatMap_nil, List.append_nil]
    omega

theorem flat_ones {f : Nat → List Bool} : ∀ n, (∀ i, i < n → false ∈ f i) → ((List.range n).flatMap f).count true + n ≤ ((List.range n).flatMap f).length
  | 0, _ => by simp
  | n + 1, h => by
    have h1 := flat_ones n (fun i hi => h i (by omega))
    have h2 := h n (by omega)
    have h3 : (f n).count true + 1 ≤ (f n).length := by
      have : 0 < (f n).count false := List.count_pos_iff.2 h2
      have e : ∀ l : List Bool, l.count true + l.count false = l.length := by
        intro l
        induction l with
        | nil => rfl
        | cons b l ih => cases b <;> simp <;> omega
      have := e (f n)
      omega
    rw [List.range_succ, List.flatMap_append, List.length_append, List.count_append]
    simp only [List.flatMap_cons, List.flatMap_nil, List.append_nil]
    omega

/-- C92: with a table that gives no difference more than `L` and none fewer than `m` bits, an image of `n` samples has between
`m * n` and `L * n` bits of code. -/
theorem C92_code_size {T : Table} {bd W L m : Nat} (hbd : 0 < bd) (hL : AtMost T bd L) (hm : AtLeast T bd m) {l : List Nat}
    (hl : ∀ x ∈ l, x < 2 ^ bd) : m * l.length ≤ (encode T bd W l).length ∧ (encode T bd W l).length ≤ L * l.length := by
  constructor
  · refine flat_ge _ fun i hi => ?_
    rw [pixelBits, diffBits_length]
    exact hm _ (cls_image hbd hl hi)
  · refine flat_le _ fun i hi => ?_
    rw [pixelBits, diffBits_length]
    exact hL _ (cls_image hbd hl hi)

/-- The longest code a difference of `bd` bits has with the default table (test_files/README.md lists them). -/
def worst (bd : Nat) : Nat := if bd ≤ 7 then bd + 3 else min (2 * bd - 3) 27

theorem default_atMost {bd : Nat} (h1 : 1 ≤ bd) (h2 : bd ≤ 16) : AtMost defaultTable bd (worst bd) := by
  have key : ∀ b : Fin 17, ∀ s : Fin 17, 1 ≤ b.val → s.val ≤ b.val → (defaultTable s).length + (if s.val = 16 then 0 else s.val) ≤ worst b := by decide +kernel
  intro s hs
  exact key ⟨bd, by omega⟩ ⟨s, by omega⟩ h1 hs

theorem default_atLeast {bd : Nat} (h2 : bd ≤ 16) : AtLeast defaultTable bd 4 := by
  have key : ∀ s : Fin 17, 4 ≤ (defaultTable s).length + (if s.val = 16 then 0 else s.val) := by decide +kernel
  intro s hs
  exact key ⟨s, by omega⟩

theorem default_hasZero {bd : Nat} (h2 : bd ≤ 16) : HasZero defaultTable bd := by
  have key : ∀ s : Fin 17, false ∈ defaultTable s := by decide +kernel
  intro s hs
  exact key ⟨s, by omega⟩

/-- C92: with the default table the code takes at least 4 bits per sample and at most 21 at 12 bits (27 at 16, `worst` in
general). -/
theorem C92_default_size {bd W : Nat} (h1 : 1 ≤ bd) (h2 : bd ≤ 16) {l : List Nat} (hl : ∀ x ∈ l, x < 2 ^ bd) :
    4 * l.length ≤ (encode defaultTable bd W l).length ∧ (encode defaultTable bd W l).length ≤ worst bd * l.length :=
  C92_code_size h1 (default_atMost h1 h2) (default_atLeast h2) hl

/-- Blocks of four black and four white samples, the other way round in every other row. -/
def blocks (bd W n : Nat) : List Nat := (List.range n).map fun i => if (i % W / 4 + i / W) % 2 = 0 then 0 else 2 ^ bd - 1

theorem blocks_getD {bd W n i : Nat} (hi : i < n) : (blocks bd W n).getD i 0 = if (i % W / 4 + i / W) % 2 = 0 then 0 else 2 ^ bd - 1 := by
  unfold blocks
  rw [List.getD_eq_getElem?_getD, List.getElem?_map, List.getElem?_range hi]; rfl

theorem cls_top {bd : Nat} (hbd : 0 < bd) {d : Int} (h1 : 2 ^ (bd - 1) ≤ d.natAbs) (h2 : d.natAbs < 2 ^ bd) : cls d = bd := by
  have := cls_eq (s := bd - 1) h1 (by rw [Nat.sub_add_cancel hbd]; exact h2)
  omega

theorem blocks_cls {bd W n i : Nat} (hbd : 0 < bd) (hW : 4 ≤ W) (hi : i < n) :
    cls (((blocks bd W n).getD i 0 : Int) - (pred bd W (blocks bd W n) i : Int)) = bd := by
  have hN : 2 * 2 ^ (bd - 1) = 2 ^ bd := by
    rw [← Nat.pow_succ']; congr 1; omega
  have hN1 : 1 ≤ 2 ^ (bd - 1) := Nat.one_le_two_pow
  have hdm := Nat.div_add_mod i W
  have hml := Nat.mod_lt i (show 0 < W by omega)
  refine cls_top hbd ?_ ?_ <;> unfold pred <;> rw [blocks_getD hi]
  all_goals
    by_cases h1 : i % W < 4
    · rw [if_pos h1]
      by_cases h2 : i < W
      · rw [if_pos h2, if_pos (by rw [Nat.div_eq_of_lt h2]; omega)]
        generalize 2 ^ (bd - 1) = M at *
        generalize 2 ^ bd = N at *
        omega
      · rw [if_neg h2, blocks_getD (by omega)]
        have e1 : (i - W) % W = i % W := by rw [Nat.mod_eq_sub_mod (a := i) (by omega)]
        have e2 : i / W = (i - W) / W + 1 := by rw [Nat.div_eq_sub_div (by omega) (by omega)]
        rw [e1, e2]
        generalize (i - W) / W = q
        generalize i % W = r at *
        generalize 2 ^ (bd - 1) = M at *
        generalize 2 ^ bd = N at *
        split <;> split <;> omega
    · rw [if_neg h1, blocks_getD (by omega)]
      have e0 : i - 4 = W * (i / W) + (i % W - 4) := by omega
      have e1 : (i - 4) % W = i % W - 4 := by
        rw [e0, Nat.mul_add_mod]; exact Nat.mod_eq_of_lt (by omega)
      have e2 : (i - 4) / W = i / W := by
        rw [e0, Nat.mul_add_div (by omega), Nat.div_eq_of_lt (a := i % W - 4) (by omega)]; omega
      rw [e1, e2]
      generalize i / W = q at *
      generalize i % W = r at *
      generalize 2 ^ (bd - 1) = M at *
      generalize 2 ^ bd = N at *
      split <;> split <;> omega

/-- C92, the upper bound is attained: at every bit depth up to 15, every row length and every size there is an image whose
code has `worst bd` bits in every sample. -/
theorem C92_worst_image {bd W : Nat} (h1 : 1 ≤ bd) (h2 : bd ≤ 15) (hW : 4 ≤ W) (n : Nat) :
    ∃ l, l.length = n ∧ (∀ x ∈ l, x < 2 ^ bd) ∧ (encode defaultTable bd W l).length = worst bd * n := by
  refine ⟨blocks bd W n, by simp [blocks], ?_, ?_⟩
  · intro x hx
    simp only [blocks, List.mem_map, List.mem_range] at hx
    obtain ⟨i, _, rfl⟩ := hx
    have : 1 ≤ 2 ^ bd := Nat.one_le_two_pow
    split <;> omega
  · unfold encode
    have hlen : (blocks bd W n).length = n := by simp [blocks]
    rw [hlen]
    refine flatMap_const n fun i hi => ?_
    rw [pixelBits, diffBits_length, blocks_cls h1 hW hi, if_neg (by omega)]
    have key : ∀ b : Fin 16, 1 ≤ b.val → (defaultTable b).length + b = worst b := by decide +kernel
    exact key ⟨bd, by omega⟩ h1

/-- C92, the lower bound is attained: an image of one grey value (mid-range) has four bits in every sample. -/
theorem C92_best_image {bd W : Nat} (h1 : 1 ≤ bd) (hW : 4 ≤ W) (n : Nat) :
    ∃ l, l.length = n ∧ (∀ x ∈ l, x < 2 ^ bd) ∧ (encode defaultTable bd W l).length = 4 * n := by
  refine ⟨List.replicate n (2 ^ (bd - 1)), by simp, ?_, ?_⟩
  · intro x hx
    rw [List.eq_of_mem_replicate hx]
    exact Nat.pow_lt_pow_right (by omega) (by omega)
  · unfold encode
    rw [List.length_replicate]
    refine flatMap_const n fun i hi => ?_
    have hg : ∀ j, j < n → (List.replicate n (2 ^ (bd - 1))).getD j 0 = 2 ^ (bd - 1) := by
      intro j hj
      rw [List.getD_eq_getElem?_getD, List.getElem?_replicate, if_pos hj]; rfl
    have hp : pred bd W (List.replicate n (2 ^ (bd - 1))) i = 2 ^ (bd - 1) := by
      unfold pred
      split
      · split
        · rfl
        · exact hg _ (by omega)
      · exact hg _ (by omega)
    rw [hg i hi, hp, pixelBits, Int.sub_self]
    decide

theorem count_ff (bytes : List Nat) : 8 * bytes.count 255 ≤ (byteBits bytes).count true := by
  induction bytes with
  | nil => simp
  | cons b bytes ih =>
    rw [byteBits, List.flatMap_cons, List.count_append, ← byteBits]
    by_cases hb : b = 255
    · subst hb
      have : (toBits 8 255).count true = 8 := by decide
      rw [List.count_cons_self]
      omega
    · rw [List.count_cons_of_ne (by omega)]
      omega

/-- Bytes that carry a part of the code, or all of it and padding, after stuffing. -/
theorem stuffed_size {T : Table} {bd W : Nat} (hbd : 0 < bd) (hz : HasZero T bd) {l : List Nat} (hl : ∀ x ∈ l, x < 2 ^ bd) {bytes : List Nat}
    (h : byteBits bytes <+: encode T bd W l ∨ ∃ j, j < 16 ∧ byteBits bytes = encode T bd W l ++ List.replicate j false) :
    8 * (stuff bytes).length + l.length ≤ 2 * (encode T bd W l).length + 15 := by
  have h1 : (encode T bd W l).count true + l.length ≤ (encode T bd W l).length := by
    refine flat_ones _ fun i hi => ?_
    unfold pixelBits diffBits
    exact List.mem_append_left _ (hz _ (cls_image hbd hl hi))
  have h2 := count_ff bytes
  have h3 : 8 * bytes.length = (byteBits bytes).length := (byteBits_length bytes).symm
  rw [stuff_length]
  rcases h with h | ⟨j, hj, h⟩
  · have := h.length_le
    have := h.sublist.count_le true
    omega
  · rw [h, List.count_append, List.count_replicate, if_neg (by decide)] at h2
    rw [h, List.length_append, List.length_replicate] at h3
    omega

/-- The samples accepted in a frame are at most `W * H`, of `bd` bits each. -/
theorem accepted_bounds {c : CoreCfg} {T : Table} (h : CamSetup c T) (allowed : Nat) {s : Cam} (hs : CamAfterReset c s)
    (ins : List CamIn) (i : CamIn) (hwf : CamWf c (ins ++ [i])) (hno : ∀ x ∈ camGiven c allowed s ins, x.2 = false) :
    (camAccepted c allowed s (ins ++ [i])).length ≤ c.int1.W * c.int1.H ∧ ∀ x ∈ camAccepted c allowed s (ins ++ [i]), x < 2 ^ c.int1.bd := by
  constructor
  · obtain ⟨D, P, M, forced, hi⟩ := frame_run_last h allowed ins i hs hwf hno
    obtain ⟨k, hc⟩ := hi.core
    have hlen := Int3.inv_len hc
    obtain ⟨its, recv, h1, h2⟩ := hc
    have hk := h1.kle
    rw [hlen]
    have e : c.int1.W * c.int1.H = c.int1.ps * (c.int1.W / c.int1.ps * c.int1.H) := by
      rw [← Nat.mul_assoc, Nat.mul_div_cancel' h.core.legal.frame.dvd]
    rw [e]
    first | exact Nat.mul_le_mul_left _ hk | (rw [Nat.mul_comm]; exact Nat.mul_le_mul_left _ hk)
  · clear hno hs
    revert hwf
    generalize ins ++ [i] = l
    intro hwf
    induction l generalizing s with
    | nil => intro x hx; simp [camAccepted] at hx
    | cons j r ih =>
      intro x hx
      simp only [camAccepted, List.mem_append] at hx
      rcases hx with hx | hx
      · split at hx
        · rename_i hv
          simp only [Bool.and_eq_true] at hv
          exact (hwf j (by simp) hv.1).2 x hx
        · simp at hx
      · exact ih (fun k hk => hwf k (by simp [hk])) x hx

/-- C92: a frame of the beta core, complete or forced, takes at most `((2 * L - 1) * W * H + 23) / 16` words of 16 bits besides its 16
marker words: `L` bits per sample are the most the table gives, and only the ones of the code can make stuffed bytes. -/
theorem C92_frame_at_most {c : CoreCfg} {T : Table} (h : CamSetup c T) {L : Nat} (hL : AtMost T c.int1.bd L) (hz : HasZero T c.int1.bd) (allowed : Nat)
    {s : Cam} (hs : CamAfterReset c s) (ins : List CamIn) (i : CamIn) (hwf : CamWf c (ins ++ [i]))
    (hno : ∀ x ∈ camGiven c allowed s ins, x.2 = false) (w : Nat) (hw : (w, true) ∈ camGiven c allowed s (ins ++ [i])) :
    (camGiven c allowed s (ins ++ [i])).length ≤ 16 + ((2 * L - 1) * (c.int1.W * c.int1.H) + 23) / 16 := by
  obtain ⟨body, e, _, hb⟩ := C30_frame h allowed hs ins i hwf hno w hw
  obtain ⟨hn, hx⟩ := accepted_bounds h allowed hs ins i hwf hno
  have hbd : 0 < c.int1.bd := by have := h.core.legal.frame.bd2; omega
  generalize camAccepted c allowed s (ins ++ [i]) = acc at *
  have hL1 : 1 ≤ L := by
    have h1 := hL 0 (by omega)
    have h2 : 0 < (T 0).length := List.length_pos_of_mem (hz 0 (by omega))
    omega
  have hN : (encode T c.int1.bd c.int1.W acc).length ≤ L * acc.length := by
    refine flat_le _ fun i hi => ?_
    rw [pixelBits, diffBits_length]
    exact hL _ (cls_image hbd hx hi)
  have hlen : (camGiven c allowed s (ins ++ [i])).length = 16 + body.length := by
    rw [e]; simp [startMark, endMark]; omega
  have hB : 16 * body.length + acc.length ≤ 2 * (encode T c.int1.bd c.int1.W acc).length + 23 := by
    have hwl := wordBytes_length body
    rcases hb with ⟨_, _, bytes, k, j, hk, hj, h1, h2⟩ | ⟨_, bytes, h1, h2⟩
    · have := stuffed_size hbd hz hx (Or.inr ⟨j, hj, h2⟩)
      rw [h1, List.length_append, List.length_replicate] at hwl
      omega
    · have := stuffed_size (bytes := bytes) hbd hz hx (h2.imp id fun h => h.2)
      have := h1.length_le
      omega
  have hmul : (2 * L - 1) * acc.length ≤ (2 * L - 1) * (c.int1.W * c.int1.H) := Nat.mul_le_mul_left _ hn
  have hmul2 : (2 * L - 1) * acc.length + acc.length = 2 * (L * acc.length) := by
    obtain ⟨k, rfl⟩ : ∃ k, L = k + 1 := ⟨L - 1, by omega⟩
    have : 2 * (k + 1) - 1 = 2 * k + 1 := by omega
    rw [this, ← Nat.succ_mul, Nat.succ_eq_add_one, show 2 * k + 1 + 1 = 2 * (k + 1) by omega, Nat.mul_assoc]
  rw [hlen]
  omega

/-- C92: a complete frame takes at least `m` bits per sample, `m` the shortest code of the table, besides its markers. -/
theorem C92_frame_at_least {c : CoreCfg} {T : Table} (h : CamSetup c T) {m : Nat} (hm : AtLeast T c.int1.bd m) (allowed : Nat)
    {s : Cam} (hs : CamAfterReset c s) (ins : List CamIn) (i : CamIn) (hwf : CamWf c (ins ++ [i]))
    (hno : ∀ x ∈ camGiven c allowed s ins, x.2 = false) (hw : (0xFFFF, true) ∈ camGiven c allowed s (ins ++ [i])) :
    16 * 16 + m * (c.int1.W * c.int1.H) ≤ 16 * (camGiven c allowed s (ins ++ [i])).length := by
  obtain ⟨body, e, _, hb⟩ := C30_frame h allowed hs ins i hwf hno 0xFFFF hw
  obtain ⟨hn, hx⟩ := accepted_bounds h allowed hs ins i hwf hno
  have hbd : 0 < c.int1.bd := by have := h.core.legal.frame.bd2; omega
  generalize camAccepted c allowed s (ins ++ [i]) = acc at *
  have hN : m * acc.length ≤ (encode T c.int1.bd c.int1.W acc).length := by
    refine flat_ge _ fun i hi => ?_
    rw [pixelBits, diffBits_length]
    exact hm _ (cls_image hbd hx hi)
  have hlen : (camGiven c allowed s (ins ++ [i])).length = 16 + body.length := by
    rw [e]; simp [startMark, endMark]; omega
  rcases hb with ⟨_, hl, bytes, k, j, hk, hj, h1, h2⟩ | ⟨h1, _⟩
  · have hwl := wordBytes_length body
    rw [h1, List.length_append, List.length_replicate, stuff_length] at hwl
    have h3 := byteBits_length bytes
    rw [h2, List.length_append, List.length_replicate] at h3
    rw [hl] at hN
    rw [hlen]
    omega
  · cases h1

/-- C92 for the shipped Verilog of the Axiom Beta core (12 bits, 4096 x 3072, default table, budget 6666000): a frame, complete
or forced, has at most 6666010 words, a complete one at least 3145744. -/
theorem C92_netlist_frame (s : Netlist.Beta.top.S) (hs : Netlist.Beta.top.Init s) (hist : List NetIn) (hst : FrameStart s hist)
    (ins : List NetIn) (i : NetIn) (hok : ∀ j ∈ hist ++ (ins ++ [i]), j.Ok) (hf : ∀ j ∈ ins ++ [i], j.fullRst = false)
    (hno : ∀ x ∈ netGiven (netRun s hist) ins, x.2 = false)
    (w : Nat) (hw : (w, true) ∈ netGiven (netRun s hist) (ins ++ [i])) :
    (netGiven (netRun s hist) (ins ++ [i])).length ≤ 6666010 ∧
    (w = 0xFFFF → 3145744 ≤ (netGiven (netRun s hist) (ins ++ [i])).length) := by
  obtain ⟨a, ha, hwf, e0, e1, e2⟩ := net_frame hs hst hok hf
  rw [e0] at hno
  rw [e2] at hw ⊢
  constructor
  · exact C65_every_frame_fits beta_setup (allowed := 6666000) (by decide) ha _ _ hwf hno hw
  · rintro rfl
    have := C92_frame_at_least beta_setup (m := 4) (default_atLeast (by decide)) 6666000 ha _ _ hwf hno hw
    have e : betaCore.int1.W * betaCore.int1.H = 12582912 := by decide
    rw [e] at this
    omega

/-! ### The hypotheses can be met -/

example : worst 12 = 21 ∧ worst 8 = 13 ∧ worst 10 = 17 ∧ worst 14 = 25 ∧ worst 16 = 27 := by decide
-- an image with the longest code
example : (encode defaultTable 12 8 (blocks 12 8 32)).length = 21 * 32 := by decide +kernel

set_option maxRecDepth 40000 in
example : (∀ x ∈ camGiven tinyCam 1000 (Cam.init tinyCam) tinyCamIns, x.2 = false) ∧
    (0xFFFF, true) ∈ camGiven tinyCam 1000 (Cam.init tinyCam) (tinyCamIns ++ [⟨[5], true, false⟩]) ∧
    (camGiven tinyCam 1000 (Cam.init tinyCam) (tinyCamIns ++ [⟨[5], true, false⟩])).length = 19 := by decide +kernel

end Props.Size
