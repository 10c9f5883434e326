/- The core: composition of Integration2 and the packer. -/
import Verif.Model.Core
import Verif.Proof.Int2
import Verif.Proof.Run

set_option autoImplicit false

namespace Model
open Spec

theorem wellMarked_marked (T : Table) (bd W : Nat) (hist : List Nat) (b : Bool) :
    WellMarked (marked T bd W hist b) := by
  intro x y h
  unfold marked at h
  have hnone : ∀ l : List Bool, (none : Option Bool) ∉ l.map some := by
    intro l hl; simp at hl
  cases b with
  | false =>
    exfalso
    simp at h
    exact hnone (encode T bd W hist) (by rw [h]; simp)
  | true =>
    simp only [if_true] at h
    cases y using snoc_induction with
    | h0 => rfl
    | h1 y z _ =>
      exfalso
      have : (encode T bd W hist).map some = x ++ none :: y := by
        have e : x ++ none :: (y ++ [z]) = (x ++ none :: y) ++ [z] := by simp
        rw [e] at h
        exact (List.append_inj' h rfl).1
      exact hnone (encode T bd W hist) (by rw [this]; simp)

namespace Int3

/-- Invariant of the core. -/
def Inv (c : CoreCfg) (C : Nat) (T : Table) (hist : List Nat) (k : Nat) (s : Int3)
    (sent : List (Nat × Bool)) : Prop :=
  ∃ its recv, Int2.Inv c C T hist k its s.int2 recv ∧ VBits.Inv c.out c.conv c.buf s.vbits sent recv

theorem inv_reset {c : CoreCfg} {C : Nat} {T : Table} (hok : CoreOk c C T)
    {m : Kept} (hm : m.Ok c) : Inv c C T [] 0 (reset c m) [] :=
  ⟨_, [], Int2.inv_reset hok hm, VBits.inv_init⟩

/-- Every valid cycle carries `ps` pixels of `bd` bits (the widths of the input ports). -/
def Wf (c : CoreCfg) (ins : List CoreIn) : Prop :=
  ∀ i ∈ ins, i.valid = true → i.pixels.length = c.int1.ps ∧ ∀ x ∈ i.pixels, x < 2 ^ c.int1.bd

theorem step_ok {c : CoreCfg} {C : Nat} {T : Table} (hok : CoreOk c C T) {hist : List Nat} {k : Nat}
    {s : Int3} {sent : List (Nat × Bool)} (h : Inv c C T hist k s sent) (i : CoreIn)
    (hwf : i.valid = true → i.pixels.length = c.int1.ps ∧ ∀ x ∈ i.pixels, x < 2 ^ c.int1.bd) :
    Inv c C T (hist ++ if i.valid && !s.nready then i.pixels else [])
      (k + (i.valid && !s.nready).toNat) (s.step c i.pixels i.valid i.busy)
      (sent ++ if s.valid && !i.busy then [(s.data, s.endd)] else []) := by
  obtain ⟨its, recv, h1, h2⟩ := h
  have hs := Int2.step_ok hok h1 s.vbits.latch hwf
  have hin : s.int2.valid = true → (s.int2.out c).Ok c.conv := by
    intro hr
    apply h1.cok
    rw [Fifo.contents_readable hr]; simp
  have hw : WellMarked (recv ++ if s.vbits.latch && s.int2.valid then (s.int2.out c).flat else []) := by
    have := hs.stream
    apply WellMarked.prefix (b := Int2.pend c (s.int2.step c i.pixels i.valid s.vbits.latch)
      ((Int2.newItem c C T hist k i.pixels (i.valid && !s.int2.nready) :: its).dropLast))
    show WellMarked (recv ++ (if s.vbits.latch && s.int2.cfifo.readable then (s.int2.out c).flat else []) ++ _)
    rw [this]
    exact wellMarked_marked _ _ _ _ _
  exact ⟨_, _, hs, VBits.step_ok hok.out hok.buf h2 hin hw⟩

theorem run_ok {c : CoreCfg} {C : Nat} {T : Table} (hok : CoreOk c C T) (ins : List CoreIn) :
    ∀ {hist : List Nat} {k : Nat} {s : Int3} {sent : List (Nat × Bool)}, Inv c C T hist k s sent →
    Wf c ins → ∃ k', Inv c C T (hist ++ accepted c s ins) k' (run c s ins) (sent ++ delivered c s ins) := by
  induction ins with
  | nil => intro hist k s sent h _; exact ⟨k, by simpa [accepted, delivered, run] using h⟩
  | cons i r ih =>
    intro hist k s sent h hwf
    have h1 := step_ok hok h i (hwf i (by simp))
    obtain ⟨k', h2⟩ := ih h1 (fun j hj => hwf j (by simp [hj]))
    refine ⟨k', ?_⟩
    simpa only [accepted, delivered, run, ← List.append_assoc] using h2

/-- The words up to the end, from the packer's invariant. -/
theorem upToEnd_pre {pre : List (Nat × Bool)} {d n : Nat} (h : ∀ w ∈ pre, w.2 = false) :
    beforeEnd (pre ++ List.replicate n (d, true)) = pre ∧
    (0 < n → upToEnd (pre ++ List.replicate n (d, true)) = pre ++ [(d, true)]) := by
  have h1 : beforeEnd (pre ++ List.replicate n (d, true)) = pre := by
    unfold beforeEnd
    rw [List.takeWhile_append_of_pos (by intro a ha; simp [h a ha])]
    cases n <;> simp [List.replicate_succ]
  refine ⟨h1, ?_⟩
  intro hn
  unfold upToEnd
  rw [h1, List.dropWhile_append_of_pos (by intro a ha; simp [h a ha])]
  obtain ⟨m, rfl⟩ := Nat.exists_eq_succ_of_ne_zero (Nat.ne_of_gt hn)
  simp [List.replicate_succ]

theorem beforeEnd_none {ws : List (Nat × Bool)} (h : ∀ w ∈ ws, w.2 = false) : beforeEnd ws = ws := by
  unfold beforeEnd
  have := List.takeWhile_append_of_pos (l₁ := ws) (l₂ := []) (p := fun x : Nat × Bool => !x.2)
    (by intro a ha; simp [h a ha])
  simpa using this

/-- Stream facts of a reachable state. -/
theorem facts {c : CoreCfg} {C : Nat} {T : Table} (hok : CoreOk c C T) {hist : List Nat} {k : Nat}
    {s : Int3} {sent : List (Nat × Bool)} (h : Inv c C T hist k s sent) :
    wordBits c.out (beforeEnd sent) <+: encode T c.int1.bd c.int1.W hist ∧
    (∀ w, (w, true) ∈ sent → k = C * c.int1.H ∧ ∃ j, j < c.out ∧
      wordBits c.out (upToEnd sent) = encode T c.int1.bd c.int1.W hist ++ List.replicate j false ∧
      ∃ n, sent = upToEnd sent ++ List.replicate n (w, true)) := by
  obtain ⟨its, recv, h1, h2⟩ := h
  have hst := h1.stream
  have hinj : Function.Injective (List.map (some : Bool → Option Bool)) :=
    fun a b hab => (List.map_inj_right (by intro x y; simp)).1 hab
  rcases h2 with h2 | h2
  · have hs := h2.stream
    refine ⟨?_, ?_⟩
    · rw [beforeEnd_none h2.sentEnd]
      rw [← hs] at hst
      have hp : (wordBits c.out sent).map some <+: marked T c.int1.bd c.int1.W hist (decide (k = C * c.int1.H)) := by
        rw [← hst, VBits.wordBits_append]
        simp only [List.map_append, List.append_assoc]
        exact List.prefix_append _ _
      unfold marked at hp
      obtain ⟨t, ht⟩ := hp
      -- a `some`-prefix of bits followed by at most one mark
      have hlen : (wordBits c.out sent).length ≤ (encode T c.int1.bd c.int1.W hist).length := by
        by_cases hle : (wordBits c.out sent).length ≤ (encode T c.int1.bd c.int1.W hist).length
        · exact hle
        · exfalso
          have hg := congrArg (fun l => l[(encode T c.int1.bd c.int1.W hist).length]?) ht
          rw [List.getElem?_append_left (by simp; omega), List.getElem?_append_right (by simp)] at hg
          simp only [List.length_map, Nat.sub_self, List.getElem?_map] at hg
          rw [List.getElem?_eq_getElem (by omega)] at hg
          simp only [Option.map_some] at hg
          split at hg <;> simp at hg
      have := congrArg (List.take (wordBits c.out sent).length) ht
      rw [List.take_left' (by simp), List.take_append_of_le_length (by simpa using hlen), ← List.map_take] at this
      rw [hinj this]
      exact List.take_prefix _ _
    · intro w hw
      have := h2.sentEnd _ hw
      simp at this
  · obtain ⟨pre, n, j, bits, e1, e2, e3, e4, e5⟩ := h2.stream
    have hmk : bits = encode T c.int1.bd c.int1.W hist ∧ k = C * c.int1.H := by
      rw [e4] at hst
      have hw := wellMarked_marked T c.int1.bd c.int1.W hist (decide (k = C * c.int1.H))
      rw [← hst] at hw
      have hnil := hw (bits.map some) (Int2.pend c s.int2 its) (by simp)
      rw [hnil] at hst
      unfold marked at hst
      by_cases hk : k = C * c.int1.H
      · simp only [hk, decide_true, if_true, List.append_nil] at hst
        exact ⟨hinj (List.append_inj' hst rfl).1, hk⟩
      · exfalso
        simp only [hk, decide_false, Bool.false_eq_true, if_false, List.append_nil] at hst
        have : (none : Option Bool) ∈ (encode T c.int1.bd c.int1.W hist).map some := by
          rw [← hst]; simp
        simp at this
    obtain ⟨hb, hk⟩ := hmk
    obtain ⟨u1, u2⟩ := upToEnd_pre (d := s.vbits.data) (n := n) e2
    refine ⟨?_, ?_⟩
    · rw [e1, u1]
      have hl := congrArg List.length e5
      simp only [List.length_append, toBits_length, List.length_replicate] at hl
      rw [← hb]
      have := congrArg (List.take (wordBits c.out pre).length) e5
      rw [List.take_left' rfl, List.take_append_of_le_length (by omega)] at this
      rw [this]
      exact List.take_prefix _ _
    · intro w hw
      have hn : 0 < n := by
        rcases Nat.eq_zero_or_pos n with h0 | h0
        · subst h0
          rw [e1] at hw
          simp only [List.replicate_zero, List.append_nil] at hw
          have := e2 _ hw
          simp at this
        · exact h0
      have hwd : w = s.vbits.data := by
        rw [e1] at hw
        rcases List.mem_append.1 hw with hw | hw
        · have := e2 _ hw; simp at this
        · have := List.eq_of_mem_replicate hw
          simpa using this
      refine ⟨hk, j, e3, ?_, n - 1, ?_⟩
      · rw [e1, u2 hn, VBits.wordBits_append, ← hb, ← e5]
        simp [wordBits]
      · rw [e1, u2 hn, hwd]
        obtain ⟨m, rfl⟩ := Nat.exists_eq_succ_of_ne_zero (Nat.ne_of_gt hn)
        simp [List.replicate_succ]

end Int3
end Model
