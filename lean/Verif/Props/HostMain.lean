/- Property theorems C84: the host test program as a whole. -/
import Verif.Proof.HostInside
import Verif.Proof.HostExam

set_option autoImplicit false

namespace Props.HostRun
open Spec Model Model.Host Model.HostMain Props

section
variable {files : Region → Nat → Nat} {m0 m' : Mem} {c : Config} {argc rawSize ljSize : Nat} {t : List Ev} {o : Option Unit}

/-! ### Memory use -/

theorem keeps_mem {S : Type} {g : S → Ev → S} {R : Mem → S → Ev → Prop} {Q : Ev → Prop} (hq : ∀ m s e, R m s e → Q e) :
    ∀ {t : List Ev} {m : Mem} {s : S}, Keeps files g R m s t → ∀ e ∈ t, Q e
  | [], _, _, _, _, he => by cases he
  | _ :: _, _, _, h, e, he => by
    rcases List.mem_cons.1 he with rfl | he
    · exact hq _ _ _ h.1
    · exact keeps_mem hq h.2 e he

/-- C84: with a reference file of 256 bytes or more that fits the destination region with 160 bytes to spare, the program
never touches a byte outside its two buffers, the two DMA regions and the two register windows, nor a buffer before
`malloc` or after `free`. -/
theorem C84_inside (h : Run files (main c argc rawSize ljSize) m0 t o m') (h0 : 256 ≤ ljSize % 2 ^ 32)
    (h1 : ljSize % 2 ^ 32 + 160 ≤ 0x2000000) {t1 t2 : List Ev} {e : Ev} (ht : t = t1 ++ e :: t2) : Inside (liveAfter t1) e := by
  subst ht
  have k := (wp_sound h (w_main (post := fun _ _ _ => True) h0 h1 fun _ _ => trivial) (keeps_of fun _ _ _ _ => trivial)).1
  exact (Keeps.at k).1

/-- C84: every access is at a multiple of its size, but for the word loads of the marker search behind the scan. -/
theorem C84_aligned (h : Run files (main c argc rawSize ljSize) m0 t o m') (h0 : 256 ≤ ljSize % 2 ^ 32)
    (h1 : ljSize % 2 ^ 32 + 160 ≤ 0x2000000) {e : Ev} (he : e ∈ t) :
    Aligned e ∨ ∃ off v, e = .load .dest off 4 v ∧ ((ljSize % 2 ^ 32 : Nat) : Int) + 16 ≤ off := by
  have k := (wp_sound h (w_main (post := fun _ _ _ => True) h0 h1 fun _ _ => trivial) (keeps_of fun _ _ _ _ => trivial)).1
  exact keeps_mem (fun _ _ _ h => h.2) k e he

/-! ### The order of events -/

theorem flow_run (hb : ∀ r k, files r k < 256) (h : Run files (main c argc rawSize ljSize) m0 t o m') :
    Keeps files flowStep (flowQ c files (ljSize % 2 ^ 32) false) m0 {} t ∧ (o = some () → Fin c (ljSize % 2 ^ 32) (t.foldl flowStep {})) := by
  have hk : Keeps files flowStep (flowA none false) m0 {} t := keeps_of fun e _ m s => by
    cases e with
    | load r off n v => cases r <;> simp [flowA]
    | _ => trivial
  obtain ⟨k1, _, k2⟩ := wp_sound h (f_main (c := c) (D := none) (B := false) (argc := argc) (rawSize := rawSize) (ljSize := ljSize)
    (s := {}) (m := m0) hb rfl) hk
  exact ⟨k1, fun e => (k2 () e).1⟩

theorem fold_dma : ∀ (t : List Ev) (s : Flow), (t.foldl flowStep s).dma = s.dma ++ dmaWrites t
  | [], s => by simp [dmaWrites]
  | e :: t, s => by
    rw [List.foldl_cons, fold_dma t]
    cases e with
    | store r off n v =>
      cases r <;> simp only [flowStep, dmaWrites, List.filterMap_cons]
      · simp
      · split
        · rfl
        · split <;> rfl
    | load r off n v =>
      cases r <;> simp only [flowStep, dmaWrites, List.filterMap_cons]
      split
      · split
        · rfl
        · split <;> rfl
      · rfl
    | _ => rfl

theorem keeps_prefix {len : Nat} {B : Bool} : ∀ {t : List Ev} {m : Mem} {s : Flow}, s.dma <+: script c len →
    Keeps files flowStep (flowQ c files len B) m s t → s.dma ++ dmaWrites t <+: script c len
  | [], _, s, h, _ => by simpa [dmaWrites] using h
  | e :: t, m, s, h, k => by
    have key : (flowStep s e).dma <+: script c len := by
      cases e with
      | store r off n v =>
        cases r with
        | dma =>
          obtain ⟨_, ⟨rest, hr⟩, _⟩ := k.1
          exact ⟨rest, by simp [flowStep, hr]⟩
        | core =>
          simp only [flowStep]
          split
          · exact h
          · split <;> exact h
        | _ => exact h
      | load r off n v =>
        cases r with
        | dma =>
          simp only [flowStep]
          split
          · split
            · exact h
            · split <;> exact h
          · exact h
        | _ => exact h
      | _ => exact h
    have ih := keeps_prefix key k.2
    have e1 := fold_dma (e :: t) s
    rw [List.foldl_cons, fold_dma t] at e1
    rw [← e1]; exact ih

/-- C84: the DMA engine is programmed by these ten writes, in this order; a finished run has made them all. The receive
length is the length of the reference and 1024 bytes more, rounded up to words; the send length the 64-bit words of the
picture. -/
theorem C84_dma_writes (hb : ∀ r k, files r k < 256) (h : Run files (main c argc rawSize ljSize) m0 t o m') :
    ∃ received, received % 4 = 0 ∧ ljSize % 2 ^ 32 + 1024 ≤ received ∧ received < ljSize % 2 ^ 32 + 1028 ∧
      dmaWrites t <+: dmaScript c.sourceBase c.destBase received (4096 * 3072 * 2) ∧
      (o = some () → dmaWrites t = dmaScript c.sourceBase c.destBase received (4096 * 3072 * 2)) := by
  obtain ⟨k, f⟩ := flow_run hb h
  have p := keeps_prefix (s := {}) (List.nil_prefix) k
  refine ⟨divisible4 (ljSize % 2 ^ 32 + 1024), ?_, ?_, ?_, p, fun e => ?_⟩
  · unfold divisible4; omega
  · unfold divisible4; omega
  · unfold divisible4; omega
  · have := (f e).1
    rw [fold_dma] at this
    exact this

/-- C84: at every write to the DMA engine the source region holds the picture of the raw12 file and the destination region
is zero, and from then on the program writes to neither, nor to the reference. -/
theorem C84_prepared (hb : ∀ r k, files r k < 256) (h : Run files (main c argc rawSize ljSize) m0 t o m')
    {t1 t2 : List Ev} {off : Int} {n v : Nat} (ht : t = t1 ++ .store .dma off n v :: t2) :
    (if c.inputLength = 64 then Holds64 (memAfter files m0 t1 .source) (files .raw12)
      else Holds32 (memAfter files m0 t1 .source) (files .raw12)) ∧
    (∀ a : Int, 0 ≤ a → a < 0x2000000 → memAfter files m0 t1 .dest a = 0) ∧
    ∀ e ∈ t2, ∀ off n v, e ≠ .store .source off n v ∧ e ≠ .store .dest off n v ∧ e ≠ .store .lj92 off n v := by
  subst ht
  obtain ⟨k, _⟩ := flow_run hb h
  obtain ⟨_, _, g, _⟩ := Keeps.at k
  refine ⟨g.pic, g.zero, ?_⟩
  intro e he off' n' v'
  obtain ⟨a, b, rfl⟩ := List.append_of_mem he
  rw [show t1 ++ Ev.store .dma off n v :: (a ++ e :: b) = (t1 ++ Ev.store .dma off n v :: a) ++ e :: b by simp] at k
  have q := Keeps.at k
  have ne : ((t1 ++ Ev.store .dma off n v :: a).foldl flowStep {}).dma ≠ [] := by
    rw [fold_dma]; simp [dmaWrites]
  refine ⟨?_, ?_, ?_⟩ <;> · rintro rfl; exact ne q

theorem flags {c : Config} {len : Nat} : ∀ {t : List Ev}, dmaWrites t <+: script c len →
    ((t.foldl flowStep {}).mm2s = true → ∃ a b x n, t = a ++ b ∧ dmaWrites a = script c len ∧ Ev.load .dma 4 n x ∈ b ∧ dmaDone x) ∧
    ((t.foldl flowStep {}).s2mm = true → ∃ a b x n, t = a ++ b ∧ dmaWrites a = script c len ∧ Ev.load .dma 0x34 n x ∈ b ∧ dmaDone x) := by
  intro t
  refine snoc_induction (P := fun t => dmaWrites t <+: script c len →
    ((t.foldl flowStep {}).mm2s = true → ∃ a b x n, t = a ++ b ∧ dmaWrites a = script c len ∧ Ev.load .dma 4 n x ∈ b ∧ dmaDone x) ∧
    ((t.foldl flowStep {}).s2mm = true → ∃ a b x n, t = a ++ b ∧ dmaWrites a = script c len ∧ Ev.load .dma 0x34 n x ∈ b ∧ dmaDone x)) ?_ ?_ t
  · intro _; exact ⟨fun h => (by cases h), fun h => (by cases h)⟩
  · intro t e ih hp
    have hp' : dmaWrites t <+: script c len := by
      refine List.IsPrefix.trans ?_ hp
      unfold dmaWrites
      rw [List.filterMap_append]
      exact List.prefix_append ..
    obtain ⟨i1, i2⟩ := ih hp'
    have ext : ∀ {off : Int}, (∃ a b x n, t = a ++ b ∧ dmaWrites a = script c len ∧ Ev.load .dma off n x ∈ b ∧ dmaDone x) →
        ∃ a b x n, t ++ [e] = a ++ b ∧ dmaWrites a = script c len ∧ Ev.load .dma off n x ∈ b ∧ dmaDone x := by
      rintro off ⟨a, b, x, n, rfl, h1, h2, h3⟩
      exact ⟨a, b ++ [e], x, n, by simp, h1, List.mem_append_left _ h2, h3⟩
    rw [List.foldl_append, List.foldl_cons, List.foldl_nil]
    cases e with
    | load r off n v =>
      cases r with
      | dma =>
        have full : (t.foldl flowStep {}).dma.length = 10 → dmaWrites t = script c len := by
          intro hl
          rw [fold_dma] at hl
          obtain ⟨z, hz⟩ := hp'
          have := congrArg List.length hz
          rw [List.length_append] at this
          have hl' : (dmaWrites t).length = 10 := hl
          have h10 : (script c len).length = 10 := rfl
          have hz0 : z.length = 0 := by omega
          rw [List.length_eq_zero_iff.1 hz0, List.append_nil] at hz
          exact hz
        by_cases hc : (t.foldl flowStep {}).dma.length = 10 ∧ doneB v = true
        · have hd : dmaDone v := by
            have := hc.2
            unfold doneB at this
            rw [Bool.and_eq_true] at this
            exact this
          simp only [flowStep]
          rw [if_pos hc]
          by_cases h4 : off = 4
          · subst h4
            rw [if_pos rfl]
            exact ⟨fun _ => ⟨t, [.load .dma 4 n v], v, n, rfl, full hc.1, by simp, hd⟩, fun h => ext (i2 h)⟩
          · rw [if_neg h4]
            by_cases h34 : off = 0x34
            · subst h34
              rw [if_pos rfl]
              exact ⟨fun h => ext (i1 h), fun _ => ⟨t, [.load .dma 0x34 n v], v, n, rfl, full hc.1, by simp, hd⟩⟩
            · rw [if_neg h34]
              exact ⟨fun h => ext (i1 h), fun h => ext (i2 h)⟩
        · simp only [flowStep]
          rw [if_neg hc]
          exact ⟨fun h => ext (i1 h), fun h => ext (i2 h)⟩
      | _ => exact ⟨fun h => ext (i1 h), fun h => ext (i2 h)⟩
    | store r off n v =>
      cases r with
      | core =>
        simp only [flowStep]
        split
        · exact ⟨fun h => ext (i1 h), fun h => ext (i2 h)⟩
        · split <;> exact ⟨fun h => ext (i1 h), fun h => ext (i2 h)⟩
      | _ => exact ⟨fun h => ext (i1 h), fun h => ext (i2 h)⟩
    | _ => exact ⟨fun h => ext (i1 h), fun h => ext (i2 h)⟩

/-- Both channels were seen done after the ten writes. -/
def BothDone (c : Config) (len : Nat) (t : List Ev) : Prop :=
  ∃ received, dmaWrites t = dmaScript c.sourceBase c.destBase received (4096 * 3072 * 2) ∧
    (∃ a b x n, t = a ++ b ∧ dmaWrites a = dmaWrites t ∧ Ev.load .dma 4 n x ∈ b ∧ dmaDone x) ∧
    (∃ a b x n, t = a ++ b ∧ dmaWrites a = dmaWrites t ∧ Ev.load .dma 0x34 n x ∈ b ∧ dmaDone x) ∧ len + 1024 ≤ received

theorem synced {len : Nat} (h : Fin c len (t.foldl flowStep {})) : BothDone c len t := by
  obtain ⟨h1, h2, h3⟩ := h
  rw [fold_dma] at h1
  have e : dmaWrites t = script c len := h1
  have f := flags (c := c) (len := len) (t := t) (by rw [e]; exact List.prefix_refl _)
  refine ⟨divisible4 (len + 1024), e, ?_, ?_, by unfold divisible4; omega⟩
  · rw [e]; exact f.1 h2
  · rw [e]; exact f.2 h3

/-- C84: the destination region is read only after both channels, with all registers written, reported interrupt on
complete and idle; and the program ends only then, too. -/
theorem C84_read_after_done (hb : ∀ r k, files r k < 256) (h : Run files (main c argc rawSize ljSize) m0 t o m') :
    (∀ t1 t2 off n v, t = t1 ++ .load .dest off n v :: t2 → BothDone c (ljSize % 2 ^ 32) t1) ∧ (o = some () → BothDone c (ljSize % 2 ^ 32) t) := by
  obtain ⟨k, f⟩ := flow_run hb h
  refine ⟨?_, fun e => synced (f e)⟩
  rintro t1 t2 off n v rfl
  exact synced (Keeps.at k)

/-- C84: an error exit leaves the DMA engine untouched, or comes after both transfers are done. -/
theorem C84_exit (hb : ∀ r k, files r k < 256) (h : Run files (main c argc rawSize ljSize) m0 t o m') {t1 t2 : List Ev}
    (ht : t = t1 ++ .exit :: t2) : dmaWrites t1 = [] ∨ BothDone c (ljSize % 2 ^ 32) t1 := by
  subst ht
  obtain ⟨k, _⟩ := flow_run hb h
  rcases (Keeps.at k : _ ∨ _) with q | q
  · rw [fold_dma] at q
    exact .inl q
  · exact .inr (synced q)

/-- C84: no way out of an error of the engine: while a channel never reports interrupt on complete together with idle (an
error halts it with bits 0 and 4 to 6 set instead), the program neither ends nor reads the destination. -/
theorem C84_error_hangs (hb : ∀ r k, files r k < 256) (h : Run files (main c argc rawSize ljSize) m0 t o m')
    (he : (∀ n x, Ev.load .dma 4 n x ∈ t → ¬ dmaDone x) ∨ (∀ n x, Ev.load .dma 0x34 n x ∈ t → ¬ dmaDone x)) :
    o = none ∧ ∀ off n v, Ev.load .dest off n v ∉ t := by
  obtain ⟨r1, r2⟩ := C84_read_after_done hb h
  have no : ∀ {t1 t2 : List Ev}, t = t1 ++ t2 → ¬ BothDone c (ljSize % 2 ^ 32) t1 := by
    rintro t1 t2 ht ⟨_, _, ⟨a, b, x, n, e1, _, e2, e3⟩, ⟨a', b', x', n', e1', _, e2', e3'⟩, _⟩
    rcases he with he | he
    · exact he n x (by rw [ht, e1]; exact List.mem_append_left _ (List.mem_append_right _ e2)) e3
    · exact he n' x' (by rw [ht, e1']; exact List.mem_append_left _ (List.mem_append_right _ e2')) e3'
  constructor
  · cases o with
    | none => rfl
    | some u => exact absurd (r2 rfl) (no (t2 := []) (by simp))
  · intro off n v hm
    obtain ⟨t1, t2, rfl⟩ := List.append_of_mem hm
    exact no rfl (r1 t1 t2 off n v rfl)

/-! ### The core registers -/

theorem fold_hw : ∀ (t : List Ev) (s : Flow), (t.foldl flowStep s).hw = t.foldl (fun x e => match e with
    | .store r' off' _ v => if r' = .core ∧ off' = 0x2000 then some v else x
    | _ => x) s.hw
  | [], _ => rfl
  | e :: t, s => by
    rw [List.foldl_cons, fold_hw t, List.foldl_cons]
    congr 1
    cases e with
    | store r off n v =>
      cases r <;> simp only [flowStep] <;> simp
      split
      · rfl
      · split <;> rfl
    | load r off n v =>
      cases r <;> simp only [flowStep]
      split
      · split
        · rfl
        · split <;> rfl
      · rfl
    | _ => rfl

theorem fold_cyc : ∀ (t : List Ev) (s : Flow), (t.foldl flowStep s).cyc = t.foldl (fun x e => match e with
    | .store r' off' _ v => if r' = .core ∧ off' = 0x2004 then some v else x
    | _ => x) s.cyc
  | [], _ => rfl
  | e :: t, s => by
    rw [List.foldl_cons, fold_cyc t, List.foldl_cons]
    congr 1
    cases e with
    | store r off n v =>
      cases r <;> simp only [flowStep] <;> simp
      by_cases h : off = 0x2000
      · rw [if_pos h]; simp [h]
      · rw [if_neg h]
        split <;> rfl
    | load r off n v =>
      cases r <;> simp only [flowStep]
      split
      · split
        · rfl
        · split <;> rfl
      · rfl
    | _ => rfl

theorem keeps_all {S : Type} {g : S → Ev → S} {R : Mem → S → Ev → Prop} :
    ∀ {t : List Ev} {m : Mem} {s : S}, (∀ t1 e t2, t = t1 ++ e :: t2 → R (memAfter files m t1) (t1.foldl g s) e) → Keeps files g R m s t
  | [], _, _, _ => trivial
  | e :: t, _, _, h => ⟨h [] e t rfl, keeps_all fun t1 e' t2 ht => h (e :: t1) e' t2 (by rw [ht]; rfl)⟩

/-- C84: when the size register reads back what was last written to it, at every write to the DMA engine the core is set
to 4096 x 3072 pixels and 0xFFFFFF cycles. -/
theorem C84_core_configured (hb : ∀ r k, files r k < 256) (h : Run files (main c argc rawSize ljSize) m0 t o m') (hl : c.axiLite = true)
    (hback : ∀ t1 t2 n v x, t = t1 ++ .load .core 0x2000 n v :: t2 → lastStore .core 0x2000 t1 = some x → v = x)
    {t1 t2 : List Ev} {off : Int} {n v : Nat} (ht : t = t1 ++ .store .dma off n v :: t2) :
    lastStore .core 0x2000 t1 = some (4096 * 2 ^ 16 + 3072) ∧ lastStore .core 0x2004 t1 = some 0xFFFFFF := by
  have hk : Keeps files flowStep (flowA none true) m0 {} t := keeps_all fun t1 e t2 he => by
    cases e with
    | load r off n v =>
      cases r <;> simp only [flowA]
      · intro d hd; cases hd
      · intro _ ho x hx
        subst ho
        rw [fold_hw] at hx
        exact hback t1 t2 n v x he hx
    | _ => trivial
  have k := (wp_sound h (f_main (c := c) (D := none) (B := true) (argc := argc) (rawSize := rawSize) (ljSize := ljSize)
    (s := {}) (m := m0) hb rfl) hk).1
  subst ht
  obtain ⟨_, _, _, q⟩ := Keeps.at k
  have q : (t1.foldl flowStep {}).hw = _ ∧ (t1.foldl flowStep {}).cyc = _ := q rfl hl
  rw [fold_hw, fold_cyc] at q
  exact q

/-! ### The verdict -/

theorem fold_txt : ∀ (t : List Ev) (s : Flow), (t.foldl flowStep s).txt = s.txt ++ said t
  | [], s => by simp [said]
  | e :: t, s => by
    rw [List.foldl_cons, fold_txt t]
    cases e with
    | say x => simp [flowStep, said]
    | store r off n v =>
      cases r <;> simp only [flowStep, said, List.filterMap_cons]
      split
      · rfl
      · split <;> rfl
    | load r off n v =>
      cases r <;> simp only [flowStep, said, List.filterMap_cons]
      split
      · split
        · rfl
        · split <;> rfl
      · rfl
    | _ => rfl

theorem checkFirst_iff {d : Nat → Nat} (hd : ∀ k, d k < 256) : checkFirst d = true ↔ ∀ k, k < 16 → d k = 255 := by
  have one : ∀ a, load32 d a = 0xFFFFFFFF ↔ ∀ j, j < 4 → d (a + j) = 255 := by
    intro a
    constructor
    · intro e j hj
      have h0 := hd a
      have h1 := hd (a + 1)
      have h2 := hd (a + 2)
      have h3 := hd (a + 3)
      unfold load32 at e
      have : j = 0 ∨ j = 1 ∨ j = 2 ∨ j = 3 := by omega
      rcases this with rfl | rfl | rfl | rfl <;> (try simp only [Nat.add_zero]) <;> omega
    · exact load_ff
  unfold checkFirst
  rw [List.all_eq_true]
  constructor
  · intro h k hk
    have := h (k / 4) (List.mem_range.2 (by omega))
    have := (one (4 * (k / 4))).1 (by simpa using this) (k % 4) (by omega)
    rw [show 4 * (k / 4) + k % 4 = k by omega] at this
    exact this
  · intro h i hi
    have hi := List.mem_range.1 hi
    have := (one (4 * i)).2 fun j hj => h (4 * i + j) (by omega)
    simp [this]

/-- C84: what a finished run prints about a destination region that reads as `d`: whether the first 16 bytes are the start
marker, what the marker search finds (C61), and the comparison with the reference, which fails at the first word, or among
the last ten bytes at the first byte, that differs. -/
theorem C84_verdict (hb : ∀ r k, files r k < 256) (h : Run files (main c argc rawSize ljSize) m0 t (some ()) m') (h10 : 10 ≤ ljSize % 2 ^ 32)
    {d : Nat → Nat} (hd : ∀ k, d k < 256) (hload : ∀ off n v, Ev.load .dest off n v ∈ t → v = ldn (fun a => d a.toNat) off n) :
    ∃ pre vs post first, said t = pre ++ ["Check for first marker.", first, "Check for last marker.",
        lastText (checkLast d (ljSize % 2 ^ 32)), "Validate data."] ++ vs ++ post ∧
      (first = "marker found." ∧ (∀ k, k < 16 → d k = 255) ∨ first = "No marker found." ∧ ¬ ∀ k, k < 16 → d k = 255) ∧
      Verdict d (swapped (files .lj92) (ljSize % 2 ^ 32)) (ljSize % 2 ^ 32) vs ∧
      (if c.axiLite && c.debugReg then ∃ l : List Nat, l.length = 8 ∧ post = debugText l else post = []) := by
  have hk : Keeps files flowStep (flowA (some d) false) m0 {} t := keeps_all fun t1 e t2 he => by
    cases e with
    | load r off n v =>
      cases r <;> simp only [flowA]
      · intro d' hd'
        cases hd'
        exact hload off n v (by rw [he]; simp)
      · intro h; cases h
    | _ => trivial
  obtain ⟨_, _, p⟩ := wp_sound h (f_main (c := c) (D := some d) (B := false) (argc := argc) (rawSize := rawSize) (ljSize := ljSize)
    (s := {}) (m := m0) hb rfl) hk
  obtain ⟨pre, vs, post, e, hv, hp⟩ := (p () rfl).2 d rfl hd h10
  have e' : said t = _ := (fold_txt t {}).symm.trans e
  refine ⟨pre, vs, post, firstText (checkFirst d), e', ?_, hv, hp⟩
  have iff := checkFirst_iff hd
  cases hc : checkFirst d
  · right
    refine ⟨rfl, fun h => ?_⟩
    rw [iff.2 h] at hc; cases hc
  · exact .inl ⟨rfl, iff.1 hc⟩

/-- C84: the comparison succeeds exactly when the region behind the 16 marker bytes is the reference with the bytes of each
16-bit word exchanged. -/
theorem C84_success_iff {d ref : Nat → Nat} {len : Nat} {vs : List String} (h : Verdict d ref len vs) :
    vs = ["Validation succeeded."] ↔ ∀ k, k < len → d (16 + k) = ref k := by
  cases h with
  | ok h => exact ⟨fun _ => h, fun _ => rfl⟩
  | word i j h1 h2 h3 h4 =>
    constructor
    · intro e; simp at e
    · intro e; exact absurd (e _ (by omega)) h4
  | byte i h1 h2 h3 =>
    constructor
    · intro e; simp at e
    · intro e; exact absurd (e _ h1) h3

/-- C84: a correct core passes: when the destination region holds a normally ended frame of the core and the reference file
is the byte-stuffed entropy-coded image of the same pixels, the run reports both markers and success. -/
theorem C84_correct_core_passes {cc : CoreCfg} {T : Table} (hset : CamSetup cc T) (allowed : Nat) {s : Cam} (hs : CamAfterReset cc s)
    (ins : List CamIn) (i : CamIn) (hwf : CamWf cc (ins ++ [i])) (hno : ∀ x ∈ camGiven cc allowed s ins, x.2 = false)
    (hw : (0xFFFF, true) ∈ camGiven cc allowed s (ins ++ [i])) (hb : ∀ r k, files r k < 256)
    (h : Run files (main c argc rawSize ljSize) m0 t (some ()) m') {d : Nat → Nat} (hd : ∀ k, d k < 256)
    (hload : ∀ off n v, Ev.load .dest off n v ∈ t → v = ldn (fun a => d a.toNat) off n)
    (hmem : Holds16 d ((camGiven cc allowed s (ins ++ [i])).map (·.1)))
    {ref : List Nat} {fill : Nat} (hfill : fill < 8) (hrb : ∀ x ∈ ref, x < 256)
    (href : byteBits ref = encode T cc.int1.bd cc.int1.W (camAccepted cc allowed s (ins ++ [i])) ++ List.replicate fill false)
    (hfile : HoldsFile (files .lj92) (stuff ref)) (hlen : ljSize = (stuff ref).length) (h10 : 10 ≤ ljSize) (h31 : ljSize < 2 ^ 31) :
    ∃ pre post k, k ≤ 2 ∧ said t = pre ++ ["Check for first marker.", "marker found.", "Check for last marker.",
      "normal marker found - offset is " ++ toString k ++ ".", "Validate data.", "Validation succeeded."] ++ post := by
  have hm : ljSize % 2 ^ 32 = ljSize := Nat.mod_eq_of_lt (by omega)
  obtain ⟨pre, vs, post, first, e, hf, hv, _⟩ := C84_verdict hb h (by rw [hm]; exact h10) hd hload
  obtain ⟨file, fdef⟩ : ∃ file : Nat → Nat, ∀ k, file k = if k < ljSize then files .lj92 k else 0 := ⟨_, fun _ => rfl⟩
  have hfb : ∀ k, file k < 256 := by
    intro k
    rw [fdef]
    have := hb .lj92 k
    split <;> omega
  have hfile' : HoldsFile file (stuff ref) := by
    intro k hk
    rw [fdef, if_pos (by omega)]; exact hfile k hk
  have hpad : file (stuff ref).length = 0 := by
    rw [fdef, if_neg (by omega)]
  obtain ⟨g1, g2, k, hk, g3⟩ := C61_correct_frame_passes hset allowed hs ins i hwf hno hw hd hfb hmem hfill hrb href hfile' hpad
    (by omega) (by omega)
  rw [← hlen] at g2 g3
  rw [hm] at e hv
  rw [validate_iff hd (fun k => by rw [reOrder_at]; split <;> exact hfb _) h10 h31] at g2
  have ok : vs = ["Validation succeeded."] := (C84_success_iff hv).2 fun k hk => by
    have hdv : k < divisible2 ljSize := by unfold divisible2; split <;> omega
    rw [g2 k hk, reOrder_at, if_pos hdv, fdef]
    rfl
  have hfirst : first = "marker found." := by
    rcases hf with ⟨h1, _⟩ | ⟨_, h2⟩
    · exact h1
    · exact absurd ((checkFirst_iff hd).1 g1) h2
  refine ⟨pre, post, k, hk, ?_⟩
  subst ok hfirst
  rw [e, g3]
  unfold lastText
  rw [List.append_assoc pre, List.cons_append, List.cons_append, List.cons_append, List.cons_append, List.cons_append, List.nil_append]

end

end Props.HostRun
