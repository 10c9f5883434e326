/- Property theorems C84, second part: which runs of the host test program finish, and which leave its memories. -/
import Verif.Proof.HostLimits
import Verif.Props.HostMain

set_option autoImplicit false

namespace Props.HostRun
open Spec Model Model.Host Model.HostMain Props

section
variable {files : Region → Nat → Nat} {m0 m' : Mem} {c : Config} {argc rawSize ljSize : Nat} {t : List Ev} {o : Option Unit}

/-- C84: with two files of the right sizes a run can finish, whatever the destination region holds, with registers of the core
that read back: the theorems of `Props/HostMain.lean` on finished runs speak of something. -/
theorem C84_can_finish (ha : argc = 3) (hr : 4096 * 3072 * 3 / 2 ≤ rawSize % 2 ^ 32) (hr' : rawSize % 2 ^ 32 < 2 ^ 31)
    (h0 : 0 < ljSize % 2 ^ 32) (h1 : ljSize % 2 ^ 32 < 2 ^ 31) (hb : c.axiLite = true → 2 ≤ c.bitDepth ∧ c.bitDepth ≤ 16)
    {d : Nat → Nat} (hd : ∀ k, d k < 256) :
    ∃ t m', Run files (main c argc rawSize ljSize) m0 t (some ()) m' ∧
      (∀ off n v, Ev.load .dest off n v ∈ t → v = ldn (fun a => d a.toNat) off n) ∧
      ∀ t1 t2 off n v x, t = t1 ++ .load .core off n v :: t2 → lastStore .core off t1 = some x → v = x := by
  obtain ⟨t, a, m', hrun, _, h2, h3⟩ := nd_run (files := files) (m := m0) (t0 := []) hd (nd_main (c := c) ha hr hr' h0 h1 hb)
    (fun _ _ h => by cases h)
  exact ⟨t, m', hrun, h2, h3⟩

/-- The files of the repository's test: sizes within the limits, with the registers of the repository's configuration. -/
example : ∃ t m', Run (fun _ _ => 7) (main config 3 18874368 13000001) (fun _ _ => 0) t (some ()) m' ∧
    (∀ off n v, Ev.load .dest off n v ∈ t → v = ldn (fun _ => 255) off n) ∧
    ∀ t1 t2 off n v x, t = t1 ++ .load .core off n v :: t2 → lastStore .core off t1 = some x → v = x :=
  C84_can_finish rfl (by decide) (by decide) (by decide) (by decide) (fun _ => by decide) (d := fun _ => 255) fun _ => by decide

/-- C84: a reference file of fewer than 256 bytes is read before its start. -/
theorem C84_short_reference (h : Run files (main c argc rawSize ljSize) m0 t (some ()) m') (hl : ljSize % 2 ^ 32 < 256) :
    ∃ t1 v t2, t = t1 ++ .load .lj92 (((ljSize % 2 ^ 32 : Nat) : Int) - 256) 1 v :: t2 ∧
      ¬ Inside (liveAfter t1) (.load .lj92 (((ljSize % 2 ^ 32 : Nat) : Int) - 256) 1 v) := by
  obtain ⟨t1, t2, m1, rfl, h, _⟩ := run_to_examine h
  obtain ⟨⟨a, v, b, rfl, _⟩, _⟩ := examine_dumps h 0 (by omega)
  refine ⟨t1 ++ a, v, b, by simp, ?_⟩
  rintro ⟨_, _, h0, _⟩
  omega

/-- C84: a reference file of 2^25 - 15 bytes or more has the destination region read behind its end. -/
theorem C84_long_reference (h : Run files (main c argc rawSize ljSize) m0 t (some ()) m') (hl : 0x2000000 - 15 ≤ ljSize % 2 ^ 32) :
    ∃ t1 v t2, t = t1 ++ .load .dest (((ljSize % 2 ^ 32 : Nat) : Int) + 15) 1 v :: t2 ∧ liveAfter t1 .dest = some 0x2000000 ∧
      ¬ Inside (liveAfter t1) (.load .dest (((ljSize % 2 ^ 32 : Nat) : Int) + 15) 1 v) := by
  obtain ⟨t1, t2, m1, rfl, h, hr⟩ := run_to_examine h
  obtain ⟨_, a, v, b, rfl, q⟩ := examine_dumps h 255 (by omega)
  have hd : liveAfter (t1 ++ a) .dest = some 0x2000000 := by
    unfold liveAfter
    rw [List.foldl_append, q]
    exact hr .dest (by decide)
  refine ⟨t1 ++ a, v, b, ?_, hd, ?_⟩
  · rw [List.append_assoc]
    congr 4
    omega
  · rintro ⟨size, hs, _, h1⟩
    rw [hd] at hs
    cases hs
    omega

/-- C84: the engine is told to receive more than the destination region holds exactly for references of more than 2^25 - 1024
bytes. -/
theorem C84_receive_beyond (hb : ∀ r k, files r k < 256) (h : Run files (main c argc rawSize ljSize) m0 t (some ()) m') :
    (∃ n, (0x58, n) ∈ dmaWrites t ∧ 0x2000000 < n) ↔ 0x2000000 - 1024 < ljSize % 2 ^ 32 := by
  obtain ⟨n, h1, h2, h3, _, h4⟩ := C84_dma_writes hb h
  rw [h4 rfl]
  constructor
  · rintro ⟨x, hx, h5⟩
    simp [dmaScript] at hx
    subst hx
    omega
  · intro h5
    exact ⟨n, by simp [dmaScript], by omega⟩

/-- C84: of the size of the reference only the lower 32 bits count: the program that is given a file of 4 GiB more does
exactly the same, up to loading the same first bytes. -/
theorem C84_size_mod (k : Nat) : main c argc rawSize (ljSize + k * 2 ^ 32) = main c argc rawSize ljSize := by
  unfold main prepare loadFile
  rw [Nat.add_mul_mod_self_right]

/-! ### Refused arguments -/

/-- No write to the DMA engine. -/
def monNo : Mon Unit := ⟨fun _ _ => (), fun _ _ _ => True, fun _ _ e => dmaWrites [e] = []⟩

section
variable {m : Mem}

theorem no_log {x : String} {post : Unit → Mem → Unit → Prop} (h : post () m ()) : wp files monNo (log x) post m () := fun _ => ⟨rfl, h⟩
theorem no_load {r : Region} {off : Int} {n : Nat} {post : Nat → Mem → Unit → Prop} (h : ∀ v, post v m ()) :
    wp files monNo (load r off n) post m () := fun v _ _ => ⟨rfl, h v⟩
theorem no_store {r : Region} {off : Int} {n v : Nat} {post : Unit → Mem → Unit → Prop} (h : ∀ m, post () m ()) (hr : r ≠ .dma := by decide) :
    wp files monNo (store r off n v) post m () := fun _ => ⟨by cases r <;> first | rfl | exact absurd rfl hr, h _⟩
theorem no_sys {post : Bool → Mem → Unit → Prop} (h : ∀ b, post b m ()) : wp files monNo sys post m () := h
theorem no_assert {b : Bool} {x : String} {post : Unit → Mem → Unit → Prop} (h : b = true → post () m ()) :
    wp files monNo (assertTerm b x) post m () := by
  unfold assertTerm
  split
  · next hb => exact h hb
  · exact fun _ => ⟨rfl, fun _ => rfl⟩
theorem no_open {post : Unit → Mem → Unit → Prop} (h : post () m ()) : wp files monNo openMem post m () := by
  unfold openMem
  rw [wp_mbind]
  exact no_sys fun _ => no_assert fun _ => h
theorem no_mmap {r : Region} {b n : Nat} {post : Unit → Mem → Unit → Prop} (h : ∀ m, post () m ()) : wp files monNo (mmap r b n) post m () := by
  unfold mmap
  simp only [wp_mbind]
  exact no_sys fun _ => no_assert fun _ => fun _ => ⟨rfl, h _⟩
theorem no_loadFile {r : Region} {size : Nat} {post : Nat → Mem → Unit → Prop} (hr : r ≠ .dma)
    (h : 0 < size % 2 ^ 32 → size % 2 ^ 32 < 2 ^ 31 → ∀ m, post (size % 2 ^ 32) m ()) : wp files monNo (loadFile r size) post m () := by
  unfold loadFile
  simp only [wp_mbind]
  refine no_sys fun _ => no_assert fun _ => no_assert fun hs => no_sys fun _ => no_assert fun _ => no_sys fun _ => no_assert fun _ => ?_
  have hs := of_decide_eq_true hs
  refine fun _ => ⟨rfl, no_sys fun b => ?_⟩
  split
  · simp only [wp_mbind]
    exact fun _ => ⟨rfl, no_store (hr := hr) fun _ => h hs.1 hs.2 _⟩
  · simp only [wp_mbind]
    exact no_assert fun h => by cases h
theorem no_loop {f : Nat → P Unit} {n i : Nat} {post : Unit → Mem → Unit → Prop}
    (hf : ∀ j m, wp files monNo (f j) (fun _ _ _ => True) m ()) (h : ∀ m, post () m ()) : wp files monNo (loop f n i) post m () :=
  wp_loop (fun _ _ _ => True) n i (fun j m _ _ _ _ => hf j m) trivial fun m _ _ => h m
theorem no_pair {k : Nat} {post : Nat × Nat → Mem → Unit → Prop} (h : ∀ x, post x m ()) : wp files monNo (loadPair k) post m () := by
  unfold loadPair
  simp only [wp_mbind]
  exact no_load fun _ => no_load fun _ => no_load fun _ => no_load fun _ => h _

theorem no_swap {n : Nat} {post : Unit → Mem → Unit → Prop} (h : ∀ m, post () m ()) : wp files monNo (reOrderFile n) post m () := by
  unfold reOrderFile
  refine no_loop (fun j m => ?_) h
  unfold turnSwap
  rw [wp_mbind]
  exact no_load fun _ => no_store fun _ => trivial
theorem no_zero {post : Unit → Mem → Unit → Prop} (h : ∀ m, post () m ()) : wp files monNo zeroDest post m () := by
  unfold zeroDest
  exact no_loop (fun j m => no_store fun _ => trivial) h
theorem no_64 {post : Unit → Mem → Unit → Prop} (h : ∀ m, post () m ()) : wp files monNo reOrderSet64 post m () := by
  unfold reOrderSet64
  refine no_loop (fun j m => ?_) h
  unfold turn64
  simp only [wp_mbind]
  exact no_pair fun _ => no_pair fun _ => no_store fun _ => trivial
theorem no_32 {post : Unit → Mem → Unit → Prop} (h : ∀ m, post () m ()) : wp files monNo reOrderSet32 post m () := by
  unfold reOrderSet32
  refine no_loop (fun j m => ?_) h
  unfold turn32
  simp only [wp_mbind]
  exact no_pair fun _ => no_store fun _ => trivial
theorem no_clear {r : Region} {post : Unit → Mem → Unit → Prop} (h : ∀ m, post () m ()) : wp files monNo (clearMemData r) post m () :=
  fun _ => ⟨rfl, h _⟩

theorem no_prepare : wp files monNo (prepare c argc rawSize ljSize) (fun _ _ _ => argc = 3 ∧ 4096 * 3072 * 3 / 2 ≤ rawSize % 2 ^ 32 ∧
    rawSize % 2 ^ 32 < 2 ^ 31 ∧ 0 < ljSize % 2 ^ 32 ∧ ljSize % 2 ^ 32 < 2 ^ 31) m () := by
  unfold prepare dmaOpen
  simp only [wp_mbind]
  refine no_log <| no_assert fun ha => no_open <| no_open <| no_mmap fun _ => no_log <| no_mmap fun _ => no_mmap fun _ => no_log <|
    no_loadFile (by decide) fun h0 h1 _ => no_log <| no_log <| no_loadFile (by decide) fun r0 r1 _ => no_assert fun hr => no_log <| no_log ?_
  have hr := of_decide_eq_true hr
  have fin : argc = 3 ∧ 4096 * 3072 * 3 / 2 ≤ rawSize % 2 ^ 32 ∧ rawSize % 2 ^ 32 < 2 ^ 31 ∧ 0 < ljSize % 2 ^ 32 ∧ ljSize % 2 ^ 32 < 2 ^ 31 :=
    ⟨by simpa using ha, hr, r1, h0, h1⟩
  revert fin
  generalize ljSize % 2 ^ 32 = y
  generalize (argc = 3 ∧ _ : Prop) = g
  intro fin
  have rest : ∀ m : Mem, wp files monNo (log "Remove Raw12 img form memory.") (fun _ => wp files monNo (clearMemData .raw12) fun _ =>
      wp files monNo (log "Re-order compressed LJ92 img.") fun _ => wp files monNo (reOrderFile y) fun _ =>
      wp files monNo (log "Zero out the MMaped destination region.") fun _ => wp files monNo zeroDest fun _ =>
      wp files monNo (pure y) fun _ _ _ => g) m () := fun m =>
    no_log <| no_clear fun _ => no_log <| no_swap fun _ => no_log <| no_zero fun _ => (wp_pure ..).2 fin
  split
  · rw [wp_mbind]
    simp only [wp_mbind]
    exact no_64 rest
  · simp only [wp_mbind]
    exact no_32 rest

end

/-- C84: without two arguments, with an empty or too large file or a raw12 file of less than a picture, the program never ends
normally and never touches the DMA engine. -/
theorem C84_refused (h : Run files (main c argc rawSize ljSize) m0 t o m')
    (hbad : argc ≠ 3 ∨ rawSize % 2 ^ 32 < 4096 * 3072 * 3 / 2 ∨ 2 ^ 31 ≤ rawSize % 2 ^ 32 ∨ ljSize % 2 ^ 32 = 0 ∨ 2 ^ 31 ≤ ljSize % 2 ^ 32) :
    o = none ∧ dmaWrites t = [] := by
  have w : wp files monNo (main c argc rawSize ljSize) (fun _ _ _ => False) m0 () := by
    unfold main
    rw [wp_mbind]
    refine wp_mono ?_ no_prepare
    rintro _ _ _ ⟨h1, h2, h3, h4, h5⟩
    omega
  obtain ⟨k, -, p⟩ := wp_sound h w (keeps_of fun _ _ _ _ => trivial)
  constructor
  · cases o with
    | none => rfl
    | some u => exact absurd (p u rfl) id
  · have all := keeps_mem (Q := fun e => dmaWrites [e] = []) (fun _ _ _ h => h) k
    clear k p h
    induction t with
    | nil => rfl
    | cons e t ih =>
      have h1 := all e (List.mem_cons_self ..)
      have h2 := ih fun e he => all e (List.mem_cons_of_mem _ he)
      unfold dmaWrites at *
      rw [show e :: t = [e] ++ t from rfl, List.filterMap_append, h1, h2]
      rfl

/-! ### The counters printed at the end -/

theorem debug_trace : ∀ {n i : Nat} {m m' : Mem} {t : List Ev} {l : List Nat}, Run files (readDebug n i) m t (some l) m' →
    l.length = n ∧ t = l.zipIdx.map fun e => Ev.load .core ((4 * (0x1000 + (i + e.2)) : Nat) : Int) 4 e.1
  | 0, _, _, _, _, _, h => by
    unfold readDebug at h
    cases h
    exact ⟨rfl, rfl⟩
  | n + 1, i, _, _, _, _, h => by
    unfold readDebug at h
    obtain ⟨t1, t2, v, m1, rfl, h1, h2⟩ := run_split h
    obtain ⟨t3, t4, l, m2, rfl, h3, h4⟩ := run_split h2
    obtain ⟨hl, rfl⟩ := debug_trace h3
    cases h4
    unfold load at h1
    cases h1 with
    | load _ h1 =>
      cases h1
      refine ⟨by simp [hl], ?_⟩
      rw [List.zipIdx_cons, List.map_cons, List.append_nil, List.singleton_append]
      congr 1
      rw [List.zipIdx_succ, List.map_map]
      apply List.map_congr_left
      intro e _
      simp only [Function.comp_apply]
      congr 2
      omega

theorem print_trace {l : List String} {x : String} {m m' : Mem} {t : List Ev} (h : Run files (printVector l x) m t (some ()) m') :
    t = (x :: l).map Ev.say := by
  unfold printVector at h
  revert h
  generalize x :: l = l'
  intro h
  induction l' generalizing m t with
  | nil => cases h; rfl
  | cons a l ih =>
    cases h with
    | act h => rw [ih h]; rfl

/-- C84: with the registers and debugging on, the last thing a run does is to read the eight counters at 0x4000, 0x4004, …,
0x401C of the register window, each once and in order, and to print them. -/
theorem C84_debug (h : Run files (main c argc rawSize ljSize) m0 t (some ()) m') (h1 : c.axiLite = true) (h2 : c.debugReg = true) :
    ∃ t1 v0 v1 v2 v3 v4 v5 v6 v7, t = t1 ++ [.load .core 0x4000 4 v0, .load .core 0x4004 4 v1, .load .core 0x4008 4 v2, .load .core 0x400C 4 v3,
      .load .core 0x4010 4 v4, .load .core 0x4014 4 v5, .load .core 0x4018 4 v6, .load .core 0x401C 4 v7] ++
      (debugText [v0, v1, v2, v3, v4, v5, v6, v7]).map Ev.say := by
  unfold main at h
  obtain ⟨a1, _, n, _, rfl, _, h⟩ := run_msplit h
  obtain ⟨a2, _, _, _, rfl, _, h⟩ := run_msplit h
  obtain ⟨a3, _, _, _, rfl, _, h⟩ := run_msplit h
  obtain ⟨a4, _, _, _, rfl, _, h⟩ := run_msplit h
  unfold examine at h
  rw [h1, h2] at h
  obtain ⟨b1, _, _, _, rfl, _, h⟩ := run_msplit h
  obtain ⟨b2, _, _, _, rfl, _, h⟩ := run_msplit h
  obtain ⟨b3, _, _, _, rfl, _, h⟩ := run_msplit h
  obtain ⟨b4, _, _, _, rfl, _, h⟩ := run_msplit h
  obtain ⟨b5, _, _, _, rfl, _, h⟩ := run_msplit h
  obtain ⟨b6, _, _, _, rfl, _, h⟩ := run_msplit h
  obtain ⟨b7, _, _, _, rfl, _, h⟩ := run_msplit h
  obtain ⟨b8, _, _, _, rfl, _, h⟩ := run_msplit h
  obtain ⟨b9, _, _, _, rfl, _, h⟩ := run_msplit h
  obtain ⟨b10, _, _, _, rfl, _, h⟩ := run_msplit h
  obtain ⟨b11, _, _, _, rfl, _, h⟩ := run_msplit h
  obtain ⟨b12, _, _, _, rfl, _, h⟩ := run_msplit h
  obtain ⟨b13, _, _, _, rfl, _, h⟩ := run_msplit h
  obtain ⟨b14, _, _, _, rfl, _, h⟩ := run_msplit h
  obtain ⟨b15, _, _, _, rfl, _, h⟩ := run_msplit h
  obtain ⟨b16, _, _, _, rfl, _, h⟩ := run_msplit h
  rw [if_pos (by rfl)] at h
  obtain ⟨b17, _, _, _, rfl, _, h⟩ := run_msplit h
  obtain ⟨b18, b19, _, _, rfl, hg, hfin⟩ := run_msplit h
  unfold getDebug at hg
  obtain ⟨d1, d2, l, _, rfl, hd, hg⟩ := run_split hg
  cases hg
  obtain ⟨hl, rfl⟩ := debug_trace hd
  have hp := print_trace hfin
  obtain ⟨v0, v1, v2, v3, v4, v5, v6, v7, rfl⟩ : ∃ v0 v1 v2 v3 v4 v5 v6 v7, l = [v0, v1, v2, v3, v4, v5, v6, v7] := by
    match l, hl with
    | [v0, v1, v2, v3, v4, v5, v6, v7], _ => exact ⟨v0, v1, v2, v3, v4, v5, v6, v7, rfl⟩
  rw [hp]
  refine ⟨a1 ++ (a2 ++ (a3 ++ (a4 ++ (b1 ++ (b2 ++ (b3 ++ (b4 ++ (b5 ++ (b6 ++ (b7 ++ (b8 ++ (b9 ++ (b10 ++ (b11 ++ (b12 ++ (b13 ++ (b14 ++ (b15 ++ (b16 ++ b17))))))))))))))))))),
    v0, v1, v2, v3, v4, v5, v6, v7, ?_⟩
  simp only [List.append_assoc, List.append_nil]
  rfl

/-- The status word of the engine in words. -/
inductive StatusBit : Nat → String → Prop
  | idle : StatusBit 1 "idle"
  | sg : StatusBit 3 "SGIncld"
  | dmaInt : StatusBit 4 "DMAIntErr"
  | dmaSlv : StatusBit 5 "DMASlvErr"
  | dmaDec : StatusBit 6 "DMADecErr"
  | sgInt : StatusBit 8 "SGIntErr"
  | sgSlv : StatusBit 9 "SGSlvErr"
  | sgDec : StatusBit 10 "SGDecErr"
  | ioc : StatusBit 12 "IOC_Irq"
  | dly : StatusBit 13 "Dly_Irq"
  | err : StatusBit 14 "Err_Irq"

theorem and_bit (v k : Nat) : v &&& 2 ^ k ≠ 0 ↔ v.testBit k = true := by
  rw [Nat.testBit_eq_decide_div_mod_eq]
  constructor
  · intro h
    refine Classical.byContradiction fun h' => h (Nat.eq_of_testBit_eq fun i => ?_)
    rw [Nat.testBit_and, Nat.testBit_two_pow, Nat.zero_testBit]
    by_cases e : k = i
    · subst e
      rw [Nat.testBit_eq_decide_div_mod_eq]
      simpa using h'
    · simp [e]
  · intro h e
    have := congrArg (fun x => Nat.testBit x k) e
    simp only [Nat.testBit_and, Nat.testBit_two_pow, Nat.zero_testBit] at this
    rw [Nat.testBit_eq_decide_div_mod_eq] at this
    simp_all

/-- C84: the status line says "halted" or "running" by bit 0 and names every other bit that is set, and no other. -/
theorem C84_status_text (v : Nat) :
    ("halted" ∈ statusText v ↔ v.testBit 0 = true) ∧ ("running" ∈ statusText v ↔ v.testBit 0 = false) ∧
      ∀ i s, StatusBit i s → (s ∈ statusText v ↔ v.testBit i = true) := by
  have h0 := and_bit v 0
  have h1 := and_bit v 1
  have h3 := and_bit v 3
  have h4 := and_bit v 4
  have h5 := and_bit v 5
  have h6 := and_bit v 6
  have h8 := and_bit v 8
  have h9 := and_bit v 9
  have h10 := and_bit v 10
  have h12 := and_bit v 12
  have h13 := and_bit v 13
  have h14 := and_bit v 14
  simp only [Nat.reducePow] at h0 h1 h3 h4 h5 h6 h8 h9 h10 h12 h13 h14
  have mem : ∀ {p : Prop} [Decidable p] {a s : String}, s ∈ (if p then [a] else []) ↔ p ∧ s = a := by
    intro p _ a s; split <;> simp [*]
  have mem0 : ∀ {p : Prop} [Decidable p] {a b s : String}, s ∈ (if p then [a] else [b]) ↔ (p ∧ s = a ∨ ¬ p ∧ s = b) := by
    intro p _ a b s; split <;> simp [*]
  unfold statusText
  simp only [List.mem_append, mem, mem0, h0, h1, h3, h4, h5, h6, h8, h9, h10, h12, h13, h14]
  refine ⟨?_, ?_, ?_⟩
  · simp
  · simp
  · intro i s hs
    cases hs <;> simp

end

end Props.HostRun
