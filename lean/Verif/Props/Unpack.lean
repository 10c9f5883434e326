/- Property theorems C33: the 64-bit to 2x24-bit unpacker behind a FIFO or AXI stream. -/
import Verif.Model.B64B32_2

set_option autoImplicit false

namespace Props
open Model

/-- One cycle of the environment: words that become visible at the source after this cycle, and the
consumer's busy signal. -/
structure UnpackIn where
  arrive : List Nat
  busy : Bool

/-- The unpacker with its source: `q` is the sequence of words the source still holds.  The source
behaves like a first-word-fall-through FIFO or an AXI stream: it shows its first word as long as it is not
taken; a word is taken in a cycle in which it is shown and `o_busy` is 0. -/
structure UnpackSys where
  u : Unpack2
  q : List Nat

def UnpackSys.step (s : UnpackSys) (i : UnpackIn) : UnpackSys :=
  { u := s.u.step (s.q.headD 0) (!s.q.isEmpty) i.busy
    q := (if s.u.oBusy then s.q else s.q.tail) ++ i.arrive }

def unpackRun : UnpackSys → List UnpackIn → UnpackSys
  | s, [] => s
  | s, i :: r => unpackRun (s.step i) r

/-- Values transferred on the output: `valid_out` and not busy. -/
def unpackGiven : UnpackSys → List UnpackIn → List Nat
  | _, [] => []
  | s, i :: r => (if s.u.valid && !i.busy then [s.u.data] else []) ++ unpackGiven (s.step i) r

/-- All words that arrived at the source. -/
def arrived (ins : List UnpackIn) : List Nat := ins.flatMap (·.arrive)

/-- Specification: bits 63..40, then bits 39..16 of a word. -/
def twoHalves (w : Nat) : List Nat := [w / 2 ^ 40 % 2 ^ 24, w / 2 ^ 16 % 2 ^ 24]

/-- What is still inside: output register, unused part of the data register, and the queue without the
word that the data register already holds. -/
def unpackPend (s : UnpackSys) : List Nat :=
  (if s.u.valid then [s.u.data] else []) ++
  (if s.u.regValid then (if s.u.half then [s.u.reg / 2 ^ 16 % 2 ^ 24] else twoHalves s.u.reg) else []) ++
  (if s.u.oBusy then s.q else s.q.tail).flatMap twoHalves

/-- Invariant of the unpacker with its source. -/
structure UnpackInv (s : UnpackSys) : Prop where
  half : s.u.half = true → s.u.valid = true ∧ s.u.regValid = true
  busy : s.u.oBusy = false → s.u.regValid = true ∧ s.u.half = false ∧ s.q.head? = some s.u.reg

theorem unpack_inv_init (q : List Nat) : UnpackInv ⟨.init, q⟩ := ⟨by simp [Unpack2.init], by simp [Unpack2.init]⟩

theorem unpack_step {s : UnpackSys} (h : UnpackInv s) (i : UnpackIn) :
    UnpackInv (s.step i) ∧
    (if s.u.valid && !i.busy then [s.u.data] else []) ++ unpackPend (s.step i) =
      unpackPend s ++ i.arrive.flatMap twoHalves := by
  obtain ⟨⟨data, valid, oBusy, reg, regValid, half⟩, q⟩ := s
  obtain ⟨arr, busy⟩ := i
  obtain ⟨h1, h2⟩ := h
  dsimp only at h1 h2
  have hq : oBusy = false → ∃ t, q = reg :: t := by
    intro hb
    obtain ⟨_, _, h3⟩ := h2 hb
    cases q with
    | nil => simp at h3
    | cons a t => simp at h3; exact ⟨t, by rw [h3]⟩
  have k1 : half = true → valid = true := fun h => (h1 h).1
  have k2 : half = true → regValid = true := fun h => (h1 h).2
  have k3 : oBusy = false → regValid = true := fun h => (h2 h).1
  have k4 : oBusy = false → half = false := fun h => (h2 h).2.1
  clear h1 h2
  cases oBusy
  · have e1 := k3 rfl
    have e2 := k4 rfl
    obtain ⟨t, rfl⟩ := hq rfl
    subst e1 e2
    refine ⟨⟨?_, ?_⟩, ?_⟩ <;> cases valid <;> cases busy <;>
      simp [UnpackSys.step, Unpack2.step, Unpack2.take, Unpack2.tobeInvalid, unpackPend, twoHalves, slice]
  · clear hq k3 k4
    cases half
    · cases regValid <;> cases q <;> refine ⟨⟨?_, ?_⟩, ?_⟩ <;> cases valid <;> cases busy <;>
        simp [UnpackSys.step, Unpack2.step, Unpack2.take, Unpack2.tobeInvalid, unpackPend, twoHalves, slice]
    · have e1 := k1 rfl
      have e2 := k2 rfl
      subst e1 e2
      cases q <;> refine ⟨⟨?_, ?_⟩, ?_⟩ <;> cases busy <;>
        simp [UnpackSys.step, Unpack2.step, Unpack2.take, Unpack2.tobeInvalid, unpackPend, twoHalves, slice]

theorem unpack_run (ins : List UnpackIn) : ∀ {s : UnpackSys}, UnpackInv s →
    UnpackInv (unpackRun s ins) ∧
    unpackGiven s ins ++ unpackPend (unpackRun s ins) = unpackPend s ++ (arrived ins).flatMap twoHalves := by
  induction ins with
  | nil => intro s h; exact ⟨h, by simp [unpackGiven, unpackRun, arrived]⟩
  | cons i r ih =>
    intro s h
    obtain ⟨h1, h2⟩ := unpack_step h i
    obtain ⟨h3, h4⟩ := ih h1
    refine ⟨h3, ?_⟩
    simp only [unpackGiven, unpackRun, List.append_assoc]
    rw [h4, ← List.append_assoc, h2]
    simp [arrived, List.append_assoc]

/-- C33, safety: at every moment of every schedule the values given are a prefix of the two
halves of each arrived word in order: nothing lost, duplicated, reordered or invented. -/
theorem C33_in_order (q : List Nat) (ins : List UnpackIn) :
    unpackGiven ⟨.init, q⟩ ins <+: (q ++ arrived ins).flatMap twoHalves := by
  obtain ⟨_, h⟩ := unpack_run ins (unpack_inv_init q)
  refine ⟨unpackPend (unpackRun ⟨.init, q⟩ ins), ?_⟩
  rw [h]; simp [unpackPend, Unpack2.init, List.flatMap_append]

/-- C33, completeness: whenever nothing valid is shown on either side (source empty, nothing held), all
halves of all arrived words have been given. -/
theorem C33_complete (q : List Nat) (ins : List UnpackIn)
    (h1 : (unpackRun ⟨.init, q⟩ ins).q = []) (h2 : (unpackRun ⟨.init, q⟩ ins).u.valid = false)
    (h3 : (unpackRun ⟨.init, q⟩ ins).u.regValid = false) :
    unpackGiven ⟨.init, q⟩ ins = (q ++ arrived ins).flatMap twoHalves := by
  obtain ⟨_, h⟩ := unpack_run ins (unpack_inv_init q)
  have : unpackPend (unpackRun ⟨.init, q⟩ ins) = [] := by simp [unpackPend, h1, h2, h3]
  rw [this, List.append_nil] at h
  rw [h]; simp [unpackPend, Unpack2.init, List.flatMap_append]


/-- How close the unpacker is to showing a value (0 = shown). -/
def unpackDist (u : Unpack2) : Nat := if u.valid then 0 else if u.regValid then 1 else 2

theorem unpack_dist {s : UnpackSys} (h : UnpackInv s) (hp : unpackPend s ≠ []) (i : UnpackIn)
    (hg : (s.u.valid && !i.busy) = false) :
    unpackPend (s.step i) ≠ [] ∧ unpackDist (s.step i).u ≤ unpackDist s.u - 1 := by
  constructor
  · have h2 := (unpack_step h i).2
    rw [hg] at h2
    simp only [Bool.false_eq_true, if_false, List.nil_append] at h2
    rw [h2]
    intro h3
    exact hp (List.append_eq_nil_iff.1 h3).1
  · obtain ⟨⟨data, valid, oBusy, reg, regValid, half⟩, q⟩ := s
    obtain ⟨arr, busy⟩ := i
    obtain ⟨h1, h2⟩ := h
    dsimp only at h1 h2 hg
    cases valid
    · cases half
      · cases regValid
        · cases oBusy
          · simp at h2
          · cases q
            · simp [unpackPend] at hp
            · simp [UnpackSys.step, Unpack2.step, Unpack2.take, unpackDist]
        · simp [UnpackSys.step, Unpack2.step, unpackDist]
      · simp at h1
    · cases busy
      · simp at hg
      · simp only [UnpackSys.step, Unpack2.step, Unpack2.take, unpackDist]
        cases regValid <;> cases half <;> cases q <;> simp [Unpack2.tobeInvalid]

/-- C33, progress: from any state reached from reset in which a value is still to come, after at
least two further cycles (in which anything may happen) the next cycle with a ready consumer has
given at least one more value.  So with a consumer that is ready again and again every value comes out. -/
theorem C33_progress (q : List Nat) (past ins : List UnpackIn) (i : UnpackIn)
    (hp : (unpackGiven ⟨.init, q⟩ past).length < ((q ++ arrived past).flatMap twoHalves).length)
    (hl : 2 ≤ ins.length) (hb : i.busy = false) :
    unpackGiven (unpackRun ⟨.init, q⟩ past) (ins ++ [i]) ≠ [] := by
  obtain ⟨hinv, hc⟩ := unpack_run past (unpack_inv_init q)
  have hne : unpackPend (unpackRun ⟨.init, q⟩ past) ≠ [] := by
    intro h0
    rw [h0, List.append_nil] at hc
    rw [hc] at hp
    simp [unpackPend, Unpack2.init, List.flatMap_append] at hp
  have key : ∀ (ins : List UnpackIn) (s : UnpackSys), UnpackInv s → unpackPend s ≠ [] →
      unpackDist s.u ≤ ins.length → unpackGiven s (ins ++ [i]) ≠ [] := by
    intro ins
    induction ins with
    | nil =>
      intro s _ _ hd
      have : s.u.valid = true := by
        cases hv : s.u.valid with
        | true => rfl
        | false => simp [unpackDist, hv] at hd; split at hd <;> omega
      simp [unpackGiven, this, hb]
    | cons j r ih =>
      intro s hs hp hd
      cases hg : s.u.valid && !j.busy with
      | true => simp [unpackGiven, hg]
      | false =>
        obtain ⟨h1, h2⟩ := unpack_dist hs hp j hg
        simp only [List.length_cons] at hd
        have := ih (s.step j) (unpack_step hs j).1 h1 (by omega)
        simp only [List.cons_append, unpackGiven, hg, Bool.false_eq_true, if_false, List.nil_append]
        exact this
  refine key ins _ hinv hne ?_
  have : unpackDist (unpackRun ⟨.init, q⟩ past).u ≤ 2 := by unfold unpackDist; split <;> (try split) <;> omega
  omega

/-- C33, stability: a value shown to a busy consumer stays shown unchanged. -/
theorem C33_stable (s : UnpackSys) (i : UnpackIn) (hv : s.u.valid = true) (hb : i.busy = true) :
    (s.step i).u.valid = true ∧ (s.step i).u.data = s.u.data := by
  obtain ⟨⟨data, valid, oBusy, reg, regValid, half⟩, q⟩ := s
  obtain ⟨arr, busy⟩ := i
  dsimp only at hv hb
  subst hv hb
  cases regValid <;> cases half <;> cases q <;>
    simp [UnpackSys.step, Unpack2.step, Unpack2.take, Unpack2.tobeInvalid]

/-- Two words, a consumer that stalls at times: both halves of both come out. -/
example : unpackGiven ⟨.init, [0x123456789ABC0000]⟩
    ([⟨[0xFFFFFF0000010000], false⟩] ++ List.replicate 3 ⟨[], true⟩ ++ List.replicate 8 ⟨[], false⟩) =
    [0x123456, 0x789ABC, 0xFFFFFF, 0x000001] := by decide

/-- The hypothesis of C33_complete on the same run. -/
example : (unpackRun ⟨.init, [0x123456789ABC0000]⟩ (List.replicate 12 ⟨[], false⟩)).q = [] ∧
    (unpackRun ⟨.init, [0x123456789ABC0000]⟩ (List.replicate 12 ⟨[], false⟩)).u.valid = false ∧
    (unpackRun ⟨.init, [0x123456789ABC0000]⟩ (List.replicate 12 ⟨[], false⟩)).u.regValid = false := by decide

end Props
