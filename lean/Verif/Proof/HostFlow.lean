/- The order of events, the contents of the memories and the printed verdict of the host test program. -/
import Verif.Spec.HostRun
import Verif.Proof.HostLogic
import Verif.Props.Host
import Verif.Props.HostCheck
import Verif.Props.Driver

set_option autoImplicit false

namespace Model.HostMain
open Spec Model.Host Props

/-! ### Loads and stores -/

theorem stn_at {f : Int → Nat} {off : Int} {n v : Nat} {a : Int} (h0 : off ≤ a) (h1 : a < off + n) :
    stn f off n v a = v / 256 ^ (a - off).toNat % 256 := by
  unfold stn; rw [if_pos ⟨h0, h1⟩]

theorem stn_off {f : Int → Nat} {off : Int} {n v : Nat} {a : Int} (h : a < off ∨ off + n ≤ a) : stn f off n v a = f a := by
  unfold stn; rw [if_neg (by omega)]

theorem ldn_stn (f : Int → Nat) (off : Int) (n v : Nat) : ∀ (k j : Nat), j + k ≤ n →
    ldn (stn f off n v) (off + j) k = v / 256 ^ j % 256 ^ k
  | 0, j, _ => by simp [ldn, Nat.mod_one]
  | k + 1, j, h => by
    unfold ldn
    have e : off + (j : Int) + 1 = off + ((j + 1 : Nat) : Int) := by omega
    rw [e, ldn_stn f off n v k (j + 1) (by omega), stn_at (by omega) (by omega)]
    rw [show (off + (j : Int) - off).toNat = j by omega, Nat.pow_succ 256 k, Nat.mul_comm (256 ^ k), Nat.mod_mul, Nat.pow_succ 256 j,
      Nat.div_div_eq_div_mul]

theorem ldn_stn_self (f : Int → Nat) (off : Int) {n v : Nat} (h : v < 256 ^ n) : ldn (stn f off n v) off n = v := by
  have := ldn_stn f off n v n 0 (by omega)
  rw [show off + ((0 : Nat) : Int) = off by omega, Nat.pow_zero, Nat.div_one, Nat.mod_eq_of_lt h] at this
  exact this

theorem ldn_congr {f g : Int → Nat} : ∀ {n : Nat} {off : Int}, (∀ a, off ≤ a → a < off + n → f a = g a) → ldn f off n = ldn g off n
  | 0, _, _ => rfl
  | n + 1, off, h => by
    unfold ldn
    rw [h off (by omega) (by omega), ldn_congr (n := n) (off := off + 1) fun a h1 h2 => h a (by omega) (by omega)]

theorem bswap_bytes {x y : Nat} (hx : x < 256) (hy : y < 256) :
    bswap16 (x + 256 * y) % 256 = y ∧ bswap16 (x + 256 * y) / 256 % 256 = x := by
  unfold bswap16
  have e1 : (x + 256 * y) % 256 = x := by omega
  have e2 : (x + 256 * y) / 256 = y := by omega
  rw [e1, e2]
  omega

theorem ldn_one (f : Int → Nat) (off : Int) : ldn f off 1 = f off := by simp [ldn]

theorem ldn_load32 {f : Int → Nat} {d : Nat → Nat} {x : Nat} (h : ∀ j, j < 4 → f ((x + j : Nat) : Int) = d (x + j)) :
    ldn f (x : Int) 4 = load32 d x := by
  simp only [ldn]
  have h0 := h 0 (by omega)
  have h1 := h 1 (by omega)
  have h2 := h 2 (by omega)
  have h3 := h 3 (by omega)
  rw [show ((x : Int) + 1) = ((x + 1 : Nat) : Int) by omega, show (((x + 1 : Nat) : Int) + 1) = ((x + 2 : Nat) : Int) by omega,
    show (((x + 2 : Nat) : Int) + 1) = ((x + 3 : Nat) : Int) by omega, h1, h2, h3]
  rw [Nat.add_zero] at h0
  rw [h0]; unfold load32; omega

/-! ### The monitor -/

structure Flow where
  dma : List (Int × Nat) := []
  mm2s : Bool := false
  s2mm : Bool := false
  txt : List String := []
  hw : Option Nat := none
  cyc : Option Nat := none

def doneB (v : Nat) : Bool := v.testBit 12 && v.testBit 1

def flowStep (s : Flow) : Ev → Flow
  | .store .dma off _ v => { s with dma := s.dma ++ [(off, v)] }
  | .store .core off _ v => if off = 0x2000 then { s with hw := some v } else if off = 0x2004 then { s with cyc := some v } else s
  | .load .dma off _ v => if s.dma.length = 10 ∧ doneB v = true then
      (if off = 4 then { s with mm2s := true } else if off = 0x34 then { s with s2mm := true } else s) else s
  | .say x => { s with txt := s.txt ++ [x] }
  | _ => s

/-- The picture is in place. -/
def Picture (c : Config) (files : Region → Nat → Nat) (m : Mem) : Prop :=
  if c.inputLength = 64 then Holds64 (m .source) (files .raw12) else Holds32 (m .source) (files .raw12)

structure Good (c : Config) (files : Region → Nat → Nat) (len : Nat) (m : Mem) : Prop where
  pic : Picture c files m
  zero : ∀ a : Int, 0 ≤ a → a < 0x2000000 → m .dest a = 0
  ref : ∀ a : Nat, a < len → m .lj92 a = swapped (files .lj92) len a

def script (c : Config) (len : Nat) : List (Int × Nat) :=
  dmaScript c.sourceBase c.destBase (divisible4 (len + 1024)) (4096 * 3072 * 2)

def Fin (c : Config) (len : Nat) (s : Flow) : Prop := s.dma = script c len ∧ s.mm2s = true ∧ s.s2mm = true

def flowQ (c : Config) (files : Region → Nat → Nat) (len : Nat) (B : Bool) (m : Mem) (s : Flow) : Ev → Prop
  | .store .dma off n v => n = 4 ∧ (∃ rest, script c len = s.dma ++ (off, v) :: rest) ∧ Good c files len m ∧
      (B = true → c.axiLite = true → s.hw = some (4096 * 2 ^ 16 + 3072) ∧ s.cyc = some 0xFFFFFF)
  | .store .source _ _ _ => s.dma = []
  | .store .dest _ _ _ => s.dma = []
  | .store .lj92 _ _ _ => s.dma = []
  | .fread _ _ => s.dma = []
  | .load .dest _ _ _ => Fin c len s
  | .exit => s.dma = [] ∨ Fin c len s
  | _ => True

def flowA (D : Option (Nat → Nat)) (B : Bool) (_ : Mem) (s : Flow) : Ev → Prop
  | .load .dest off n v => ∀ d, D = some d → v = ldn (fun a => d a.toNat) off n
  | .load .core off _ v => B = true → off = 0x2000 → ∀ x, s.hw = some x → v = x
  | _ => True

def monFlow (c : Config) (files : Region → Nat → Nat) (len : Nat) (D : Option (Nat → Nat)) (B : Bool) : Mon Flow :=
  ⟨flowStep, flowA D B, flowQ c files len B⟩

def Flow.say (s : Flow) (l : List String) : Flow := { s with txt := s.txt ++ l }

theorem Flow.say_say (s : Flow) (a b : List String) : (s.say a).say b = s.say (a ++ b) := by simp [Flow.say]

section
variable {c : Config} {files : Region → Nat → Nat} {len : Nat} {D : Option (Nat → Nat)} {B : Bool} {m : Mem} {s : Flow}

local notation "W" => wp files (monFlow c files len D B)

theorem f_log {x : String} {post : Unit → Mem → Flow → Prop} (h : post () m (s.say [x])) : W (log x) post m s := fun _ => ⟨trivial, h⟩

theorem f_sys {post : Bool → Mem → Flow → Prop} (h : ∀ b, post b m s) : W sys post m s := h

theorem f_assert {b : Bool} {x : String} {post : Unit → Mem → Flow → Prop} (hs : s.dma = [] ∨ Fin c len s) (h : b = true → post () m s) :
    W (assertTerm b x) post m s := by
  unfold assertTerm
  split
  · next hc => exact h hc
  · exact fun _ => ⟨trivial, fun _ => hs⟩

theorem f_print {l : List String} {x : String} {post : Unit → Mem → Flow → Prop} (h : post () m (s.say (x :: l))) :
    W (printVector l x) post m s := by
  unfold printVector
  revert h
  generalize x :: l = l'
  intro h
  induction l' generalizing s with
  | nil =>
    have e : s.say [] = s := by simp [Flow.say]
    rw [e] at h
    exact h
  | cons a l ih =>
    refine fun _ => ⟨trivial, ih ?_⟩
    show post () m ((s.say [a]).say l)
    rw [Flow.say_say]
    exact h

theorem f_open {post : Unit → Mem → Flow → Prop} (hs : s.dma = [] ∨ Fin c len s) (h : post () m s) : W openMem post m s := by
  unfold openMem
  simp only [wp_mbind]
  exact f_sys fun b => f_assert hs fun _ => h

theorem f_mmap {r : Region} {b n : Nat} {post : Unit → Mem → Flow → Prop} (hs : s.dma = [] ∨ Fin c len s) (h : post () m s) :
    W (mmap r b n) post m s := by
  unfold mmap
  simp only [wp_mbind]
  exact f_sys fun b => f_assert hs fun _ => fun _ => ⟨trivial, h⟩

/-! ### Preparation -/

/-- A load from one of the two buffers. -/
theorem f_buf {r : Region} {off : Int} {n : Nat} {post : Nat → Mem → Flow → Prop} (hr : r = .raw12 ∨ r = .lj92)
    (h : post (ldn (m r) off n) m s) : W (load r off n) post m s := by
  intro v hv _
  rcases hr with rfl | rfl <;> exact ⟨trivial, by rw [show v = _ from hv]; exact h⟩

/-- A store before the DMA engine is touched. -/
theorem f_store {r : Region} {off : Int} {n v : Nat} {post : Unit → Mem → Flow → Prop} (hs : s.dma = []) (hr : r ≠ .dma ∧ r ≠ .core)
    (h : post () (effect files (.store r off n v) m) s) : W (store r off n v) post m s := by
  intro _
  cases r
  · exact ⟨trivial, h⟩
  · exact ⟨hs, h⟩
  · exact ⟨hs, h⟩
  · exact ⟨hs, h⟩
  · exact absurd rfl hr.1
  · exact absurd rfl hr.2

/-- The file with its zero padding is in the buffer. -/
def Loaded (files : Region → Nat → Nat) (r : Region) (n : Nat) (m : Mem) : Prop :=
  ∀ a : Nat, a < n + 128 → m r a = if a < n then files r a else 0

theorem f_loadFile {r : Region} {size : Nat} {post : Nat → Mem → Flow → Prop} (hs : s.dma = []) (hr : r = .raw12 ∨ r = .lj92)
    (h : ∀ m', (∀ r', r' ≠ r → m' r' = m r') → Loaded files r (size % 2 ^ 32) m' → post (size % 2 ^ 32) m' s) :
    W (loadFile r size) post m s := by
  unfold loadFile
  simp only [wp_mbind]
  refine f_sys fun b => f_assert (.inl hs) fun _ => f_assert (.inl hs) fun hz => f_sys fun b => f_assert (.inl hs) fun _ =>
    f_sys fun b => f_assert (.inl hs) fun _ => ?_
  generalize size % 2 ^ 32 = z at h ⊢
  refine fun _ => ⟨trivial, ?_⟩
  refine f_sys fun b => ?_
  split
  · simp only [wp_mbind]
    refine fun _ => ⟨hs, ?_⟩
    refine f_store hs (by rcases hr with rfl | rfl <;> decide) ?_
    refine h _ ?_ ?_
    · intro r' hr'
      simp [effect, hr']
    · intro a ha
      simp only [effect, if_true]
      by_cases hz : a < z
      · rw [stn_off (by omega), if_pos (by omega), if_pos hz]; rfl
      · rw [stn_at (by omega) (by omega), if_neg hz, Nat.zero_div]
  · simp only [wp_mbind]
    exact f_assert (.inl hs) fun h => by cases h

theorem f_pair {k : Nat} {post : Nat × Nat → Mem → Flow → Prop} {n : Nat} (hf : Loaded files .raw12 n m) (hk : k + 3 ≤ n)
    (h : post (pixA (files .raw12) k, pixB (files .raw12) k) m s) : W (loadPair k) post m s := by
  unfold loadPair
  simp only [wp_mbind]
  refine f_buf (.inl rfl) <| f_buf (.inl rfl) <| f_buf (.inl rfl) <| f_buf (.inl rfl) ?_
  simp only [ldn_one]
  rw [hf k (by omega), hf (k + 1) (by omega), hf (k + 2) (by omega), if_pos (by omega), if_pos (by omega), if_pos (by omega)]
  exact h

theorem f_64 {post : Unit → Mem → Flow → Prop} {n : Nat} (hf : Loaded files .raw12 n m) (hb : ∀ k, files .raw12 k < 256)
    (hn : 4096 * 3072 * 3 / 2 ≤ n) (hs : s.dma = [])
    (h : ∀ m', (∀ r, r ≠ .source → m' r = m r) → Holds64 (m' .source) (files .raw12) → post () m' s) : W reOrderSet64 post m s := by
  unfold reOrderSet64
  refine wp_loop (fun j m' s' => s' = s ∧ (∀ r, r ≠ .source → m' r = m r) ∧ ∀ k, k < j → ldn (m' .source) ((8 * k : Nat) : Int) 8 =
    ((pixA (files .raw12) (6 * k) <<< 52) ||| (pixB (files .raw12) (6 * k) <<< 40) ||| (pixA (files .raw12) (6 * k + 3) <<< 28) |||
      (pixB (files .raw12) (6 * k + 3) <<< 16)) % 2 ^ 64) _ 0 ?_ ⟨rfl, fun _ _ => rfl, fun k hk => by omega⟩ ?_
  · intro j m' s' _ hj ⟨e, hm, hw⟩
    subst e
    have hf' : Loaded files .raw12 n m' := by unfold Loaded; rw [hm _ (by decide)]; exact hf
    unfold turn64
    simp only [wp_mbind]
    refine f_pair hf' (by omega) <| f_pair hf' (by omega) <| f_store hs (by decide) ⟨rfl, ?_, ?_⟩
    · intro r hr; simp [effect, hr, hm r hr]
    · intro k hk
      simp only [effect, if_true]
      by_cases e : k = j
      · subst e
        exact ldn_stn_self _ _ (Nat.lt_of_lt_of_eq (Nat.mod_lt _ (by decide)) (by decide))
      · rw [ldn_congr (g := m' .source) (fun a h1 h2 => stn_off (by omega))]
        exact hw k (by omega)
  · intro m' s' ⟨e, hm, hw⟩
    subst e
    refine h m' hm ?_
    intro k hk
    refine ⟨_, rfl, ?_⟩
    rw [hw k (by omega), show 6 * k = 3 * (2 * k) by omega, show 3 * (2 * k) + 3 = 3 * (2 * k + 1) by omega, pixA_eq hb, pixB_eq hb, pixA_eq hb,
      pixB_eq hb, pack64 (raw12_lt ..) (raw12_lt ..) (raw12_lt ..) (raw12_lt ..), show 2 * (2 * k) = 4 * k by omega,
      show 2 * (2 * k + 1) = 4 * k + 2 by omega]
    have h0 := raw12_lt (files .raw12) (4 * k)
    have h1 := raw12_lt (files .raw12) (4 * k + 1)
    have h2 := raw12_lt (files .raw12) (4 * k + 2)
    have h3 := raw12_lt (files .raw12) (4 * k + 2 + 1)
    simp only [List.cons.injEq, and_true]
    rw [show 4 * k + 3 = 4 * k + 2 + 1 by omega]
    refine ⟨by omega, ?_, ?_, ?_, ?_⟩ <;> omega

theorem f_32 {post : Unit → Mem → Flow → Prop} {n : Nat} (hf : Loaded files .raw12 n m) (hb : ∀ k, files .raw12 k < 256)
    (hn : 4096 * 3072 * 3 / 2 ≤ n) (hs : s.dma = [])
    (h : ∀ m', (∀ r, r ≠ .source → m' r = m r) → Holds32 (m' .source) (files .raw12) → post () m' s) : W reOrderSet32 post m s := by
  unfold reOrderSet32
  refine wp_loop (fun j m' s' => s' = s ∧ (∀ r, r ≠ .source → m' r = m r) ∧ ∀ k, k < j → ldn (m' .source) ((4 * k : Nat) : Int) 4 =
    ((pixA (files .raw12) (3 * k) <<< 20) ||| (pixB (files .raw12) (3 * k) <<< 8)) % 2 ^ 32) _ 0 ?_
    ⟨rfl, fun _ _ => rfl, fun k hk => by omega⟩ ?_
  · intro j m' s' _ hj ⟨e, hm, hw⟩
    subst e
    have hf' : Loaded files .raw12 n m' := by unfold Loaded; rw [hm _ (by decide)]; exact hf
    unfold turn32
    simp only [wp_mbind]
    refine f_pair hf' (by omega) <| f_store hs (by decide) ⟨rfl, ?_, ?_⟩
    · intro r hr; simp [effect, hr, hm r hr]
    · intro k hk
      simp only [effect, if_true]
      by_cases e : k = j
      · subst e
        exact ldn_stn_self _ _ (Nat.lt_of_lt_of_eq (Nat.mod_lt _ (by decide)) (by decide))
      · rw [ldn_congr (g := m' .source) (fun a h1 h2 => stn_off (by omega))]
        exact hw k (by omega)
  · intro m' s' ⟨e, hm, hw⟩
    subst e
    refine h m' hm ?_
    intro k hk
    refine ⟨_, rfl, ?_⟩
    rw [hw k (by omega), pixA_eq hb, pixB_eq hb, pack32 (raw12_lt ..) (raw12_lt ..)]
    have h0 := raw12_lt (files .raw12) (2 * k)
    have h1 := raw12_lt (files .raw12) (2 * k + 1)
    simp only [List.cons.injEq, and_true]
    refine ⟨by omega, ?_, ?_⟩ <;> omega

theorem f_swap {post : Unit → Mem → Flow → Prop} {n : Nat} (hf : Loaded files .lj92 n m) (hb : ∀ k, files .lj92 k < 256) (hs : s.dma = [])
    (h : ∀ m', (∀ r, r ≠ .lj92 → m' r = m r) → (∀ a : Nat, a < n → m' .lj92 a = swapped (files .lj92) n a) → post () m' s) :
    W (reOrderFile n) post m s := by
  have hd : n ≤ divisible2 n ∧ divisible2 n ≤ n + 1 ∧ divisible2 n % 2 = 0 := by unfold divisible2; split <;> omega
  unfold reOrderFile
  refine wp_loop (fun j m' s' => s' = s ∧ (∀ r, r ≠ .lj92 → m' r = m r) ∧ ∀ a : Nat, a < n + 128 → m' .lj92 a =
    if a < 2 * j then swapped (files .lj92) n a else if a < n then files .lj92 a else 0) _ 0 ?_
    ⟨rfl, fun _ _ => rfl, fun a ha => by rw [if_neg (by omega)]; exact hf a ha⟩ ?_
  · intro j m' s' _ hj ⟨e, hm, hw⟩
    subst e
    unfold turnSwap
    simp only [wp_mbind]
    refine f_buf (.inr rfl) <| f_store hs (by decide) ⟨rfl, ?_, ?_⟩
    · intro r hr; simp [effect, hr, hm r hr]
    · intro a ha
      simp only [effect, if_true]
      have b0 : m' .lj92 ((2 * j : Nat) : Int) < 256 := by
        rw [hw (2 * j) (by omega), if_neg (by omega)]
        have := hb (2 * j)
        split <;> omega
      have b1 : m' .lj92 ((2 * j : Nat) + 1 : Int) < 256 := by
        have e : ((2 * j : Nat) + 1 : Int) = ((2 * j + 1 : Nat) : Int) := by omega
        rw [e, hw (2 * j + 1) (by omega), if_neg (by omega)]
        have := hb (2 * j + 1)
        split <;> omega
      have hl : ldn (m' .lj92) ((2 * j : Nat) : Int) 2 = m' .lj92 ((2 * j : Nat) : Int) + 256 * m' .lj92 ((2 * j : Nat) + 1 : Int) := by
        simp only [ldn]; omega
      by_cases e0 : a = 2 * j
      · rw [stn_at (by omega) (by omega), if_pos (by omega), show ((a : Int) - ((2 * j : Nat) : Int)).toNat = 0 by omega, hl, Nat.pow_zero, Nat.div_one,
          (bswap_bytes b0 b1).1]
        unfold swapped
        have e : ((2 * j : Nat) + 1 : Int) = ((2 * j + 1 : Nat) : Int) := by omega
        have hv := hw (2 * j + 1) (by omega)
        rw [if_neg (by omega), ← e] at hv
        rw [if_pos (show a % 2 = 0 by omega)]
        subst e0
        exact hv
      · by_cases e1 : a = 2 * j + 1
        · rw [stn_at (by omega) (by omega), if_pos (by omega), show ((a : Int) - ((2 * j : Nat) : Int)).toNat = 1 by omega, hl, Nat.pow_one,
            (bswap_bytes b0 b1).2]
          unfold swapped
          have hv := hw (2 * j) (by omega)
          rw [if_neg (by omega)] at hv
          rw [if_neg (show ¬ a % 2 = 0 by omega)]
          subst e1
          exact hv
        · rw [stn_off (by omega), hw a ha]
          by_cases h2 : a < 2 * j
          · rw [if_pos h2, if_pos (by omega)]
          · rw [if_neg h2, if_neg (show ¬ a < 2 * (j + 1) by omega)]
  · intro m' s' ⟨e, hm, hw⟩
    subst e
    refine h m' hm fun a ha => ?_
    rw [hw a (by omega), if_pos (by omega)]

theorem f_zero {post : Unit → Mem → Flow → Prop} (hs : s.dma = [])
    (h : ∀ m', (∀ r, r ≠ .dest → m' r = m r) → (∀ a : Int, 0 ≤ a → a < 0x2000000 → m' .dest a = 0) → post () m' s) :
    W zeroDest post m s := by
  unfold zeroDest
  refine wp_loop (fun j m' s' => s' = s ∧ (∀ r, r ≠ .dest → m' r = m r) ∧ ∀ a : Int, 0 ≤ a → a < 4 * (j : Int) → m' .dest a = 0) _ 0 ?_
    ⟨rfl, fun _ _ => rfl, fun a h0 h1 => by omega⟩ ?_
  · intro j m' s' _ hj ⟨e, hm, hw⟩
    subst e
    refine f_store hs (by decide) ⟨rfl, ?_, ?_⟩
    · intro r hr; simp [effect, hr, hm r hr]
    · intro a h0 h1
      simp only [effect, if_true]
      by_cases h2 : a < 4 * (j : Int)
      · rw [stn_off (by omega)]; exact hw a h0 h2
      · rw [stn_at (by omega) (by omega), Nat.zero_div]
  · intro m' s' ⟨e, hm, hw⟩
    subst e
    exact h m' hm fun a h0 h1 => hw a h0 (by omega)

theorem f_prepare {argc rawSize ljSize : Nat} {post : Nat → Mem → Flow → Prop} (hb : ∀ r k, files r k < 256) (hs : s.dma = [])
    (h : ∀ m s, s.dma = [] → Good c files (ljSize % 2 ^ 32) m → post (ljSize % 2 ^ 32) m s) :
    W (prepare c argc rawSize ljSize) post m s := by
  unfold prepare dmaOpen
  simp only [wp_mbind]
  refine f_log <| f_assert (.inl hs) fun _ => f_open (.inl hs) <| f_open (.inl hs) <| f_mmap (.inl hs) <| f_log <|
    f_mmap (.inl hs) <| f_mmap (.inl hs) <| f_log <| f_loadFile hs (.inr rfl) fun m1 _ hlj => ?_
  refine f_log <| f_log <| f_loadFile hs (.inl rfl) fun m2 hm2 hraw => f_assert (.inl hs) fun hr => f_log <| f_log ?_
  have hr := of_decide_eq_true hr
  have hlj2 : Loaded files .lj92 (ljSize % 2 ^ 32) m2 := by unfold Loaded; rw [hm2 _ (by decide)]; exact hlj
  generalize ljSize % 2 ^ 32 = y at h hlj hlj2 ⊢
  generalize rawSize % 2 ^ 32 = z at hr hraw ⊢
  have rest : ∀ (s : Flow) (m3 : Mem), s.dma = [] → (∀ r, r ≠ .source → m3 r = m2 r) → Picture c files m3 →
      W (log "Remove Raw12 img form memory.") (fun _ m s => W (clearMemData .raw12)
        (fun _ m s => W (log "Re-order compressed LJ92 img.") (fun _ m s => W (reOrderFile y)
        (fun _ m s => W (log "Zero out the MMaped destination region.") (fun _ m s => W zeroDest
        (fun _ m s => W (pure y) post m s) m s) m s) m s) m s) m s) m3 s := by
    intro s m3 hs hm3 hp
    refine f_log ?_
    unfold clearMemData
    refine fun _ => ⟨trivial, ?_⟩
    have hlj3 : Loaded files .lj92 y m3 := by unfold Loaded; rw [hm3 _ (by decide)]; exact hlj2
    refine f_log <| f_swap hlj3 (hb _) hs fun m4 hm4 hr4 => f_log <| f_zero hs fun m5 hm5 hz5 => h _ _ hs ⟨?_, hz5, ?_⟩
    · unfold Picture at hp ⊢
      have e : m5 .source = m3 .source := by rw [hm5 _ (by decide), hm4 _ (by decide)]; rfl
      rw [e]; exact hp
    · intro a ha
      rw [hm5 _ (by decide)]; exact hr4 a ha
  split
  · next hi =>
    simp only [wp_mbind]
    refine f_64 hraw (hb _) (by omega) hs fun m3 hm3 hh => rest _ m3 hs hm3 ?_
    unfold Picture; rw [if_pos (by simpa using hi)]; exact hh
  · next hi =>
    simp only [wp_mbind]
    refine f_32 hraw (hb _) (by omega) hs fun m3 hm3 hh => rest _ m3 hs hm3 ?_
    unfold Picture; rw [if_neg (by simpa using hi)]; exact hh

/-! ### The registers -/

theorem Good.reg {len : Nat} {r : Region} {off : Int} {n v : Nat} (hr : r = .dma ∨ r = .core) (h : Good c files len m) :
    Good c files len (effect files (.store r off n v) m) := by
  have e : ∀ r', r' ≠ .dma → r' ≠ .core → effect files (.store r off n v) m r' = m r' := by
    intro r' h1 h2
    rcases hr with rfl | rfl
    · simp [effect, h1]
    · simp [effect, h2]
  refine ⟨?_, ?_, ?_⟩
  · have := h.pic
    unfold Picture at this ⊢
    rw [e _ (by decide) (by decide)]; exact this
  · intro a; rw [e _ (by decide) (by decide)]; exact h.zero a
  · intro a; rw [e _ (by decide) (by decide)]; exact h.ref a

theorem f_get {off : Nat} {α : Type} {k : Nat → Prog α} {post : α → Mem → Flow → Prop}
    (h : ∀ v, v < 2 ^ 32 → (B = true → off = 0x800 → ∀ x, s.hw = some x → v = x) → W (ofProg (k v)) post m s) : W (ofProg (.get off k)) post m s :=
  fun v hv ha => ⟨trivial, h v hv fun hb ho x hx => ha hb (by subst ho; rfl) x hx⟩

theorem f_set {off v : Nat} {α : Type} {k : Prog α} {post : α → Mem → Flow → Prop}
    (h : W (ofProg k) post (effect files (.store .core ((4 * off : Nat) : Int) 4 v) m)
      (if off = 0x800 then { s with hw := some v } else if off = 0x801 then { s with cyc := some v } else s)) :
    W (ofProg (.set off v k)) post m s := by
  refine fun _ => ⟨trivial, ?_⟩
  have e : flowStep s (.store .core ((4 * off : Nat) : Int) 4 v) =
      (if off = 0x800 then { s with hw := some v } else if off = 0x801 then { s with cyc := some v } else s) := by
    simp only [flowStep]
    by_cases h1 : off = 0x800
    · rw [if_pos (by omega), if_pos h1]
    · rw [if_neg (by omega), if_neg h1]
      by_cases h2 : off = 0x801
      · rw [if_pos (by omega), if_pos h2]
      · rw [if_neg (by omega), if_neg h2]
  show wp files (monFlow c files len D B) (ofProg k) post (effect files (.store .core ((4 * off : Nat) : Int) 4 v) m)
    (flowStep s (.store .core ((4 * off : Nat) : Int) 4 v))
  rw [e]; exact h

theorem f_codes {α : Type} {post : α → Mem → Flow → Prop} : ∀ {n i : Nat} {k : List Nat → Prog α},
    (∀ l, W (ofProg (k l)) post m s) → W (ofProg (readCodes n i k)) post m s
  | 0, _, _, h => h []
  | n + 1, i, k, h => by
    unfold readCodes
    exact f_get fun lo _ _ => f_get fun hi _ _ => f_codes fun l => h _

/-- The core is set up for the picture, as far as its register reads back what was written. -/
def Sized (B : Bool) (s : Flow) : Prop := B = true → s.hw = some (4096 * 2 ^ 16 + 3072) ∧ s.cyc = some 0xFFFFFF

theorem f_configure {bd : Nat} {post : Unit → Mem → Flow → Prop} (hs : s.dma = []) (hg : Good c files len m)
    (h : ∀ m s, s.dma = [] → Good c files len m → Sized B s → post () m s) : W (configure bd) post m s := by
  unfold configure
  simp only [wp_mbind]
  unfold setWidth setHeight setAllowedCycles getHeight getWidth getAllowedCycles getSsssProg HW_OFFSET
  refine f_get fun v0 _ _ => f_set ?_
  rw [if_pos rfl]
  refine f_get fun v1 h1 hv1 => f_set ?_
  rw [if_pos rfl]
  refine f_get fun _ _ _ => f_log <| f_get fun _ _ _ => f_log <| f_log <| f_set ?_
  rw [if_neg (by decide), if_pos (by decide)]
  refine f_get fun _ _ _ => f_log <| f_codes fun l => f_print ?_
  refine h _ _ hs (((hg.reg (.inr rfl)).reg (.inr rfl)).reg (.inr rfl)) ?_
  intro hb
  refine ⟨?_, rfl⟩
  show some (((v1 >>> 16) % 2 ^ 16) <<< 16 ||| 3072) = _
  have e := hv1 hb rfl _ rfl
  have hh : v0 &&& 0xFFFF < 2 ^ 16 := by
    have := Nat.and_le_right (n := v0) (m := 0xFFFF); omega
  rw [e, pack_hw hh, pack_hw (by decide), Nat.shiftRight_eq_div_pow]
  revert hh
  generalize v0 &&& 0xFFFF = x
  intro hh
  rw [show (4096 * 2 ^ 16 + x) / 2 ^ 16 % 2 ^ 16 = 4096 by omega]

theorem f_coreOpen {base bd : Nat} {post : Unit → Mem → Flow → Prop} (hs : s.dma = [] ∨ Fin c len s) (h : post () m s) :
    W (coreOpen base bd) post m s := by
  unfold coreOpen
  simp only [wp_mbind]
  exact f_open hs <| f_assert hs fun _ => f_mmap hs h

theorem f_setupCore {post : Unit → Mem → Flow → Prop} (hs : s.dma = []) (hg : Good c files len m)
    (h : ∀ m s, s.dma = [] → Good c files len m → (c.axiLite = true → Sized B s) → post () m s) : W (setupCore c) post m s := by
  unfold setupCore
  split
  · simp only [wp_mbind]
    exact f_log <| f_log <| f_coreOpen (.inl hs) <| f_configure hs hg fun m s h1 h2 h3 => h m s h1 h2 fun _ => h3
  · next hn =>
    simp only [wp_mbind]
    exact f_log <| f_log <| h _ _ hs hg fun h => absurd h hn

/-- State while the DMA engine is set up. -/
structure Setup (c : Config) (files : Region → Nat → Nat) (len : Nat) (B : Bool) (m : Mem) (s : Flow) (done : List (Int × Nat)) : Prop where
  dma : s.dma = done
  good : Good c files len m
  sized : c.axiLite = true → Sized B s

theorem Setup.say {l : List (Int × Nat)} {x : List String} (h : Setup c files len B m s l) : Setup c files len B m (s.say x) l := ⟨h.1, h.2, h.3⟩

theorem f_dmaSet {off v : Nat} {l rest : List (Int × Nat)} {post : Unit → Mem → Flow → Prop} (hs : Setup c files len B m s l)
    (hl : script c len = l ++ (((4 * (off / 4) : Nat) : Int), v) :: rest)
    (h : ∀ m s, Setup c files len B m s (l ++ [(((4 * (off / 4) : Nat) : Int), v)]) → post () m s) : W (dmaSet off v) post m s := by
  unfold dmaSet
  refine fun _ => ⟨⟨rfl, ⟨rest, by rw [hs.dma]; exact hl⟩, hs.good, fun hb ha => hs.sized ha hb⟩, h _ _ ⟨?_, hs.good.reg (.inl rfl), hs.sized⟩⟩
  show s.dma ++ _ = _
  rw [hs.dma]

theorem f_statusLow {off : Nat} {l : List (Int × Nat)} {post : List String → Mem → Flow → Prop} (hs : Setup c files len B m s l) (hl : l.length < 10)
    (h : ∀ x, post x m s) : W (dmaStatus off) post m s := by
  unfold dmaStatus dmaGet
  rw [wp_bind]
  refine fun v _ _ => ⟨trivial, ?_⟩
  have e : flowStep s (.load .dma ((4 * (off / 4) : Nat) : Int) 4 v) = s := by
    simp only [flowStep]
    rw [if_neg (by rw [hs.dma]; omega)]
  show post _ m (flowStep s (.load .dma ((4 * (off / 4) : Nat) : Int) 4 v))
  rw [e]; exact h _

theorem f_printLow {l : List (Int × Nat)} {post : Unit → Mem → Flow → Prop} (hs : Setup c files len B m s l) (hl : l.length < 10)
    (h : ∀ s, Setup c files len B m s l → post () m s) : W printStatus post m s := by
  unfold printStatus
  simp only [wp_mbind]
  exact f_statusLow hs hl fun x => f_print <| f_statusLow hs.say hl fun x => f_print <| h _ hs.say.say

theorem f_setupDma {post : Unit → Mem → Flow → Prop} (hs : Setup c files len B m s [])
    (h : ∀ m s, Setup c files len B m s (script c len) → post () m s) : W (setupDma c len) post m s := by
  unfold setupDma resetDma haltDma setDmaSrcDist startDma setDmaTransferLen
  simp only [wp_mbind]
  refine f_log <| f_dmaSet hs.say rfl fun m s hs => f_dmaSet hs rfl fun m s hs => f_printLow hs (by simp) fun s hs => ?_
  refine f_log <| f_dmaSet hs.say rfl fun m s hs => f_dmaSet hs rfl fun m s hs => f_printLow hs (by simp) fun s hs => ?_
  refine f_log <| f_dmaSet hs.say rfl fun m s hs => f_dmaSet hs rfl fun m s hs => ?_
  refine f_log <| f_dmaSet hs.say rfl fun m s hs => f_dmaSet hs rfl fun m s hs => ?_
  exact f_log <| f_dmaSet hs.say rfl fun m s hs => f_dmaSet hs (rest := []) rfl fun m s hs => h m s hs

theorem f_sync {off : Nat} {post : Unit → Mem → Flow → Prop} (hl : s.dma = script c len) (ho : off = mm2sStatus ∨ off = s2mmStatus)
    (h : post () m (if off = mm2sStatus then { s with mm2s := true } else { s with s2mm := true })) : W (dmaSync off) post m s := by
  refine fun v _ _ => ⟨trivial, fun hd => ?_, fun hd => ?_⟩
  · have e : flowStep s (.load .dma ((4 * (off / 4) : Nat) : Int) 4 v) =
        (if off = mm2sStatus then { s with mm2s := true } else { s with s2mm := true }) := by
      simp only [flowStep]
      rw [if_pos ⟨by rw [hl]; rfl, hd⟩]
      rcases ho with rfl | rfl <;> rfl
    show post () m (flowStep s (.load .dma ((4 * (off / 4) : Nat) : Int) 4 v))
    rw [e]; exact h
  · show flowStep s (.load .dma ((4 * (off / 4) : Nat) : Int) 4 v) = s
    simp only [flowStep]
    rw [if_neg]
    intro ⟨_, h2⟩
    have : doneB v = false := hd
    rw [this] at h2; cases h2

theorem f_waitDma {post : Unit → Mem → Flow → Prop} (hs : Setup c files len B m s (script c len))
    (h : ∀ s, Setup c files len B m s (script c len) → Fin c len s → post () m s) : W waitDma post m s := by
  unfold waitDma
  simp only [wp_mbind]
  refine f_log <| f_sync hs.dma (.inl rfl) ?_
  rw [if_pos rfl]
  refine f_log <| f_sync hs.dma (.inr rfl) ?_
  rw [if_neg (by decide)]
  exact h _ ⟨hs.dma, hs.good, hs.sized⟩ ⟨hs.dma, rfl, rfl⟩

end

end Model.HostMain
