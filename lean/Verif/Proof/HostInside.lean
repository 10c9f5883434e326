/- Memory use of the host test program. -/
import Verif.Spec.HostRun
import Verif.Proof.HostLogic

set_option autoImplicit false

namespace Model.HostMain
open Spec Model.Host

/-- Aligned, or one of the word loads of the marker search behind the scan. -/
def Al (len : Nat) (e : Ev) : Prop := Aligned e ∨ ∃ off v, e = .load .dest off 4 v ∧ (len : Int) + 16 ≤ off

def monLive (len : Nat) : Mon Live := ⟨liveStep, fun _ _ _ => True, fun _ live e => Inside live e ∧ Al len e⟩

section
variable {files : Region → Nat → Nat} {len : Nat} {m : Mem} {s : Live}

theorem w_log {x : String} {post : Unit → Mem → Live → Prop} (h : post () m s) : wp files (monLive len) (log x) post m s :=
  fun _ => ⟨⟨trivial, .inl trivial⟩, h⟩

theorem w_load {r : Region} {off : Int} {n : Nat} {post : Nat → Mem → Live → Prop} (sz : Nat) (hl : s r = some sz) (h0 : 0 ≤ off)
    (h1 : off + n ≤ sz) (ha : off % n = 0 ∨ (r = .dest ∧ n = 4 ∧ (len : Int) + 16 ≤ off)) (h : ∀ v, LoadOk m r off n v → post v m s) :
    wp files (monLive len) (load r off n) post m s := fun v hv _ => ⟨⟨⟨sz, hl, h0, h1⟩, by
      rcases ha with ha | ⟨rfl, rfl, ha⟩
      · exact .inl ha
      · exact .inr ⟨off, v, rfl, ha⟩⟩, h v hv⟩

theorem w_store {r : Region} {off : Int} {n v : Nat} {post : Unit → Mem → Live → Prop} (sz : Nat) (hl : s r = some sz) (h0 : 0 ≤ off)
    (h1 : off + n ≤ sz) (ha : n ≤ 8 → off % n = 0) (h : ∀ m, post () m s) : wp files (monLive len) (store r off n v) post m s :=
  fun _ => ⟨⟨⟨sz, hl, h0, h1⟩, .inl ha⟩, h _⟩

theorem w_sys {post : Bool → Mem → Live → Prop} (h : ∀ b, post b m s) : wp files (monLive len) sys post m s := h

theorem w_assert {c : Bool} {x : String} {post : Unit → Mem → Live → Prop} (h : c = true → post () m s) :
    wp files (monLive len) (assertTerm c x) post m s := by
  unfold assertTerm
  split
  · next hc => exact h hc
  · exact fun _ => ⟨⟨trivial, .inl trivial⟩, fun _ => ⟨trivial, .inl trivial⟩⟩

theorem w_dump {r : Region} {off : Int} {n sz : Nat} {post : Unit → Mem → Live → Prop} (hl : s r = some sz) (h0 : 0 ≤ off)
    (h1 : off + n ≤ sz) (h : ∀ m, post () m s) : wp files (monLive len) (memDump r off n) post m s := by
  unfold memDump
  refine wp_loop (fun _ _ s' => s' = s) n 0 ?_ rfl (fun m s' e => by subst e; exact h m)
  intro j m s' _ hj e
  subst e
  rw [wp_bind]
  exact w_load sz hl (by omega) (by omega) (.inl (by omega)) (fun _ _ => rfl)

theorem w_print {l : List String} {x : String} {post : Unit → Mem → Live → Prop} (h : post () m s) :
    wp files (monLive len) (printVector l x) post m s := by
  unfold printVector
  generalize x :: l = l'
  induction l' with
  | nil => exact h
  | cons a l ih => exact fun _ => ⟨⟨trivial, .inl trivial⟩, ih⟩

theorem w_mmap {r : Region} {b n : Nat} {post : Unit → Mem → Live → Prop} (h : post () m (liveStep s (.mmap r b n))) :
    wp files (monLive len) (mmap r b n) post m s := by
  unfold mmap
  simp only [wp_mbind]
  refine w_sys fun b => w_assert fun _ => fun _ => ⟨⟨trivial, .inl trivial⟩, h⟩

theorem w_open {post : Unit → Mem → Live → Prop} (h : post () m s) : wp files (monLive len) openMem post m s := by
  unfold openMem
  simp only [wp_mbind]
  exact w_sys fun b => w_assert fun _ => h

theorem w_loadFile {r : Region} {size : Nat} {post : Nat → Mem → Live → Prop}
    (h : 0 < size % 2 ^ 32 → size % 2 ^ 32 < 2 ^ 31 → ∀ m, post (size % 2 ^ 32) m (liveStep s (.malloc r (size % 2 ^ 32 + 128)))) :
    wp files (monLive len) (loadFile r size) post m s := by
  unfold loadFile
  simp only [wp_mbind]
  refine w_sys fun b => w_assert fun _ => w_assert fun hs => w_sys fun b => w_assert fun _ => w_sys fun b => w_assert fun _ => ?_
  have hs := of_decide_eq_true hs
  generalize size % 2 ^ 32 = z at h hs ⊢
  refine fun _ => ⟨⟨trivial, .inl trivial⟩, ?_⟩
  refine w_sys fun b => ?_
  have fin : ∀ m, wp files (monLive len) (store r (z : Int) 128 0)
      (fun _ m s => wp files (monLive len) (pure z) post m s) m (liveStep s (.malloc r (z + 128))) := fun m =>
    w_store (z + 128) (by simp [liveStep]) (by omega) (by omega) (by omega) (fun m => h hs.1 hs.2 m)
  split
  · simp only [wp_mbind]
    exact fun _ => ⟨⟨⟨z + 128, by simp [monLive, liveStep], by omega⟩, .inl trivial⟩, fin _⟩
  · simp only [wp_mbind]
    exact w_assert fun h => by cases h

/-- The memories after the preparation. -/
def ready (len : Nat) : Live
  | .raw12 => none
  | .lj92 => some (len + 128)
  | .source => some 0x2000000
  | .dest => some 0x2000000
  | .dma => some 65535
  | .core => none

/-- The memories once the core registers may be mapped. -/
def Ready (len : Nat) (s : Live) : Prop := ∀ r, r ≠ .core → s r = ready len r

theorem w_pair {c : Nat} {post : Nat × Nat → Mem → Live → Prop} {sz : Nat} (hl : s .raw12 = some sz) (hc : c + 3 ≤ sz)
    (h : ∀ x, post x m s) : wp files (monLive len) (loadPair c) post m s := by
  unfold loadPair
  simp only [wp_mbind]
  refine w_load sz hl (by omega) (by omega) (.inl (by omega)) fun _ _ => w_load sz hl (by omega) (by omega) (.inl (by omega)) fun _ _ =>
    w_load sz hl (by omega) (by omega) (.inl (by omega)) fun _ _ => w_load sz hl (by omega) (by omega) (.inl (by omega)) fun _ _ => h _

theorem w_64 {post : Unit → Mem → Live → Prop} {sz : Nat} (hl : s .raw12 = some sz) (hs : s .source = some 0x2000000)
    (hz : 4096 * 3072 * 3 / 2 ≤ sz) (h : ∀ m, post () m s) : wp files (monLive len) reOrderSet64 post m s := by
  unfold reOrderSet64
  refine wp_loop (fun _ _ s' => s' = s) _ 0 ?_ rfl (fun m s' e => by subst e; exact h m)
  intro j m s' _ hj e
  subst e
  unfold turn64
  simp only [wp_mbind]
  refine w_pair hl (by omega) fun a => w_pair hl (by omega) fun b => w_store _ hs (by omega) (by omega) (by omega) fun _ => rfl

theorem w_32 {post : Unit → Mem → Live → Prop} {sz : Nat} (hl : s .raw12 = some sz) (hs : s .source = some 0x2000000)
    (hz : 4096 * 3072 * 3 / 2 ≤ sz) (h : ∀ m, post () m s) : wp files (monLive len) reOrderSet32 post m s := by
  unfold reOrderSet32
  refine wp_loop (fun _ _ s' => s' = s) _ 0 ?_ rfl (fun m s' e => by subst e; exact h m)
  intro j m s' _ hj e
  subst e
  unfold turn32
  simp only [wp_mbind]
  refine w_pair hl (by omega) fun a => w_store _ hs (by omega) (by omega) (by omega) fun _ => rfl

theorem w_swap {post : Unit → Mem → Live → Prop} {n : Nat} (hl : s .lj92 = some (n + 128)) (h : ∀ m, post () m s) :
    wp files (monLive len) (reOrderFile n) post m s := by
  unfold reOrderFile
  refine wp_loop (fun _ _ s' => s' = s) _ 0 ?_ rfl (fun m s' e => by subst e; exact h m)
  intro j m s' _ hj e
  subst e
  have hd : divisible2 n ≤ n + 1 := by unfold divisible2; split <;> omega
  unfold turnSwap
  simp only [wp_mbind]
  refine w_load _ hl (by omega) (by omega) (.inl (by omega)) fun v _ => w_store _ hl (by omega) (by omega) (by omega) fun _ => rfl

theorem w_zero {post : Unit → Mem → Live → Prop} (hl : s .dest = some 0x2000000) (h : ∀ m, post () m s) :
    wp files (monLive len) zeroDest post m s := by
  unfold zeroDest
  refine wp_loop (fun _ _ s' => s' = s) _ 0 ?_ rfl (fun m s' e => by subst e; exact h m)
  intro j m s' _ hj e
  subst e
  exact w_store _ hl (by omega) (by omega) (by omega) fun _ => rfl

theorem w_prepare {c : Config} {argc rawSize ljSize : Nat} {post : Nat → Mem → Live → Prop}
    (h : 0 < ljSize % 2 ^ 32 → ljSize % 2 ^ 32 < 2 ^ 31 → ∀ m, post (ljSize % 2 ^ 32) m (ready (ljSize % 2 ^ 32))) :
    wp files (monLive len) (prepare c argc rawSize ljSize) post m (fun _ => none) := by
  unfold prepare dmaOpen
  simp only [wp_mbind]
  refine w_log <| w_assert fun _ => w_open <| w_open <| w_mmap <| w_log <| w_mmap <| w_mmap <| w_log <| w_loadFile fun h0 h1 m => ?_
  refine w_log <| w_log <| w_loadFile fun h2 h3 m => w_assert fun hr => w_log <| w_log ?_
  have hr := of_decide_eq_true hr
  generalize hz : rawSize % 2 ^ 32 = z at hr h2 h3 ⊢
  generalize hy : ljSize % 2 ^ 32 = y at h h0 h1 ⊢
  have hlj : ∀ s : Live, s = liveStep (liveStep (liveStep (liveStep (liveStep (liveStep (fun _ => none) (.mmap .dma c.dmaBase 65535))
      (.mmap .source c.sourceBase 0x2000000)) (.mmap .dest c.destBase 0x2000000)) (.malloc .lj92 (y + 128)))
      (.malloc .raw12 (z + 128))) (.free .raw12) → s = ready y := by
    intro s e; subst e; funext r; cases r <;> rfl
  have rest : ∀ m s, s = liveStep (liveStep (liveStep (liveStep (liveStep (fun _ => none) (.mmap .dma c.dmaBase 65535))
      (.mmap .source c.sourceBase 0x2000000)) (.mmap .dest c.destBase 0x2000000)) (.malloc .lj92 (y + 128)))
      (.malloc .raw12 (z + 128)) → wp files (monLive len) (log "Remove Raw12 img form memory.") (fun _ m s => wp files (monLive len) (clearMemData .raw12)
        (fun _ m s => wp files (monLive len) (log "Re-order compressed LJ92 img.") (fun _ m s => wp files (monLive len) (reOrderFile y)
        (fun _ m s => wp files (monLive len) (log "Zero out the MMaped destination region.") (fun _ m s => wp files (monLive len) zeroDest
        (fun _ m s => wp files (monLive len) (pure y) post m s) m s) m s) m s) m s) m s) m s := by
    intro m s e
    refine w_log ?_
    unfold clearMemData
    refine fun _ => ⟨⟨by subst e; simp [Inside, liveStep], .inl trivial⟩, ?_⟩
    have e' := hlj (liveStep s (.free .raw12)) (by rw [e])
    show wp files (monLive len) (log "Re-order compressed LJ92 img.") _ _ (liveStep s (.free .raw12))
    rw [e']
    exact w_log <| w_swap rfl fun m => w_log <| w_zero rfl fun m => h h0 h1 m
  split
  · simp only [wp_mbind]
    exact w_64 (sz := z + 128) (by simp [liveStep]) (by simp [liveStep]) (by omega) fun m => rest m _ rfl
  · simp only [wp_mbind]
    exact w_32 (sz := z + 128) (by simp [liveStep]) (by simp [liveStep]) (by omega) fun m => rest m _ rfl

/-! ### The registers -/

theorem Ready.map {base n : Nat} (h : Ready n s) : Ready n (liveStep s (.mmap .core base 65535)) := by
  intro r hr
  simp only [liveStep, hr, if_false]
  exact h r hr

theorem w_coreOpen {base bd n : Nat} {post : Unit → Mem → Live → Prop} (hs : Ready n s)
    (h : bd ≤ 16 → ∀ s, Ready n s → s .core = some 65535 → post () m s) : wp files (monLive len) (coreOpen base bd) post m s := by
  unfold coreOpen
  simp only [wp_mbind]
  refine w_open <| w_assert fun hb => w_mmap ?_
  have hb := of_decide_eq_true hb
  exact h hb.2 _ hs.map (by simp [liveStep])

theorem w_get {off : Nat} {α : Type} {k : Nat → Prog α} {post : α → Mem → Live → Prop} (hl : s .core = some 65535) (ho : off < 10000)
    (h : ∀ v, wp files (monLive len) (ofProg (k v)) post m s) : wp files (monLive len) (ofProg (.get off k)) post m s :=
  fun v _ _ => ⟨⟨⟨_, hl, by omega, by omega⟩, .inl (by show ((4 * off : Nat) : Int) % 4 = 0; omega)⟩, h v⟩

theorem w_set {off v : Nat} {α : Type} {k : Prog α} {post : α → Mem → Live → Prop} (hl : s .core = some 65535) (ho : off < 10000)
    (h : ∀ m, wp files (monLive len) (ofProg k) post m s) : wp files (monLive len) (ofProg (.set off v k)) post m s :=
  fun _ => ⟨⟨⟨_, hl, by omega, by omega⟩, .inl (by show 4 ≤ 8 → ((4 * off : Nat) : Int) % 4 = 0; omega)⟩, h _⟩

theorem w_codes {α : Type} {post : α → Mem → Live → Prop} (hl : s .core = some 65535) : ∀ {n i : Nat} {k : List Nat → Prog α}, i + n ≤ 16 →
    (∀ l, wp files (monLive len) (ofProg (k l)) post m s) → wp files (monLive len) (ofProg (readCodes n i k)) post m s
  | 0, _, _, _, h => h []
  | n + 1, i, k, hi, h => by
    unfold readCodes
    refine w_get hl (by unfold SSSS_OFFSET; omega) fun lo => w_get hl (by unfold SSSS_OFFSET; omega) fun hi' => ?_
    exact w_codes hl (by omega) fun l => h _

theorem w_configure {bd : Nat} {post : Unit → Mem → Live → Prop} (hl : s .core = some 65535) (hb : bd ≤ 16)
    (h : ∀ m, post () m s) : wp files (monLive len) (configure bd) post m s := by
  unfold configure
  simp only [wp_mbind]
  unfold setWidth setHeight setAllowedCycles getHeight getWidth getAllowedCycles getSsssProg HW_OFFSET
  refine w_get hl (by omega) fun _ => w_set hl (by omega) fun m => w_get hl (by omega) fun _ => w_set hl (by omega) fun m => ?_
  refine w_get hl (by omega) fun _ => w_log <| w_get hl (by omega) fun _ => w_log <| w_log <| w_set hl (by omega) fun m => ?_
  refine w_get hl (by omega) fun _ => w_log <| w_codes hl (by omega) fun l => w_print (h m)

theorem w_setupCore {c : Config} {n : Nat} {post : Unit → Mem → Live → Prop} (hs : Ready n s) (h : ∀ m s, Ready n s → post () m s) :
    wp files (monLive len) (setupCore c) post m s := by
  unfold setupCore
  split
  · simp only [wp_mbind]
    exact w_log <| w_log <| w_coreOpen hs fun hb s hs hl => w_configure hl hb fun m => h m s hs
  · simp only [wp_mbind]
    exact w_log <| w_log <| h m s hs

theorem w_dmaSet {off v : Nat} {post : Unit → Mem → Live → Prop} (hl : s .dma = some 65535) (ho : off < 100) (h : ∀ m, post () m s) :
    wp files (monLive len) (dmaSet off v) post m s := by
  unfold dmaSet
  exact w_store _ hl (by omega) (by omega) (by omega) h

theorem w_status {off : Nat} {post : List String → Mem → Live → Prop} (hl : s .dma = some 65535) (ho : off < 100) (h : ∀ l, post l m s) :
    wp files (monLive len) (dmaStatus off) post m s := by
  unfold dmaStatus dmaGet
  rw [wp_bind]
  exact w_load _ hl (by omega) (by omega) (.inl (by omega)) fun v _ => h _

theorem w_printStatus {post : Unit → Mem → Live → Prop} (hl : s .dma = some 65535) (h : post () m s) :
    wp files (monLive len) printStatus post m s := by
  unfold printStatus
  simp only [wp_mbind]
  exact w_status hl (by decide) fun l => w_print <| w_status hl (by decide) fun l => w_print h

theorem w_setupDma {c : Config} {n : Nat} {post : Unit → Mem → Live → Prop} (hl : s .dma = some 65535) (h : ∀ m, post () m s) :
    wp files (monLive len) (setupDma c n) post m s := by
  unfold setupDma resetDma haltDma setDmaSrcDist startDma setDmaTransferLen
  simp only [wp_mbind]
  refine w_log <| w_dmaSet hl (by decide) fun m => w_dmaSet hl (by decide) fun m => w_printStatus hl <| ?_
  refine w_log <| w_dmaSet hl (by decide) fun m => w_dmaSet hl (by decide) fun m => w_printStatus hl <| ?_
  refine w_log <| w_dmaSet hl (by decide) fun m => w_dmaSet hl (by decide) fun m => ?_
  refine w_log <| w_dmaSet hl (by decide) fun m => w_dmaSet hl (by decide) fun m => ?_
  exact w_log <| w_dmaSet hl (by decide) fun m => w_dmaSet hl (by decide) fun m => h m

theorem w_sync {off : Nat} {post : Unit → Mem → Live → Prop} (hl : s .dma = some 65535) (ho : off < 100) (h : post () m s) :
    wp files (monLive len) (dmaSync off) post m s :=
  fun v _ _ => ⟨⟨⟨_, hl, by omega, by omega⟩, .inl (by show ((4 * (off / 4) : Nat) : Int) % 4 = 0; omega)⟩, fun _ => h, fun _ => rfl⟩

theorem w_waitDma {post : Unit → Mem → Live → Prop} (hl : s .dma = some 65535) (h : post () m s) :
    wp files (monLive len) waitDma post m s := by
  unfold waitDma
  simp only [wp_mbind]
  exact w_log <| w_sync hl (by decide) <| w_log <| w_sync hl (by decide) h

/-! ### The examination -/

theorem w_firstLoop {post : Bool → Mem → Live → Prop} (hl : s .dest = some 0x2000000) (h : ∀ b, post b m s) :
    ∀ {n i : Nat}, i + n ≤ 4 → wp files (monLive len) (firstLoop n i) post m s
  | 0, _, _ => h true
  | n + 1, i, hi => by
    unfold firstLoop
    rw [wp_bind]
    refine w_load _ hl (by omega) (by omega) (.inl (by omega)) fun v _ => ?_
    split
    · rw [wp_bind]; exact w_log (h false)
    · exact w_firstLoop hl h (by omega)

theorem w_search {post : Nat → Mem → Live → Prop} (hl : s .dest = some 0x2000000) {hi : Nat} (hh : hi + 16 ≤ 0x2000000)
    (h : ∀ off, len + 16 ≤ off → off ≤ hi → post off m s) :
    ∀ {n off : Nat}, len + 16 ≤ off → off + n ≤ hi → wp files (monLive len) (searchLoop n off) post m s
  | 0, off, h0, h1 => h off h0 (by omega)
  | n + 1, off, h0, h1 => by
    unfold searchLoop
    rw [wp_bind]
    refine w_load _ hl (by omega) (by omega) (.inr ⟨rfl, rfl, by omega⟩) fun v _ => ?_
    split
    · exact h off h0 (by omega)
    · rw [wp_bind]
      refine w_load _ hl (by omega) (by omega) (.inr ⟨rfl, rfl, by omega⟩) fun v _ => ?_
      split
      · exact h off h0 (by omega)
      · exact w_search hl hh h (by omega) (by omega)

theorem w_lastLoop {post : Bool → Mem → Live → Prop} {off : Nat} (hl : s .dest = some 0x2000000) (h0 : len + 16 ≤ off)
    (hh : off + 16 ≤ 0x2000000) (h : ∀ b, post b m s) : ∀ {n i : Nat}, i + n ≤ 4 → wp files (monLive len) (lastLoop off n i) post m s
  | 0, _, _ => h true
  | n + 1, i, hi => by
    unfold lastLoop
    rw [wp_bind]
    refine w_load _ hl (by omega) (by omega) (.inr ⟨rfl, rfl, by omega⟩) fun v _ => ?_
    split
    · rw [wp_bind]
      refine w_load _ hl (by omega) (by omega) (.inr ⟨rfl, rfl, by omega⟩) fun v _ => ?_
      split
      · rw [wp_bind]; exact w_log (h false)
      · exact w_lastLoop hl h0 hh h (by omega)
    · exact w_lastLoop hl h0 hh h (by omega)

theorem w_last {post : Unit → Mem → Live → Prop} (hl : s .dest = some 0x2000000) (hh : len + 160 ≤ 0x2000000) (h : post () m s) :
    wp files (monLive len) (checkLastMarker len) post m s := by
  unfold checkLastMarker
  simp only [wp_mbind]
  refine w_search hl (hi := len + 16 + 128) (by omega) (fun off h0 h1 => ?_) (by omega) (by omega)
  refine w_lastLoop hl h0 (by omega) (fun b => ?_) (by omega)
  split
  · simp only [wp_mbind]
    refine w_load _ hl (by omega) (by omega) (.inr ⟨rfl, rfl, by omega⟩) fun v _ => ?_
    have fin : wp files (monLive len) (load .dest (off : Int) 4) (fun a m s => wp files (monLive len)
        (if (a == forceWord) = true then log ("force marker found - offset is " ++ toString (off - len - 16) ++ ".") else pure ()) post m s) m s := by
      refine w_load _ hl (by omega) (by omega) (.inr ⟨rfl, rfl, by omega⟩) fun v _ => ?_
      split
      · exact w_log h
      · exact h
    split
    · simp only [wp_mbind]
      exact w_log fin
    · exact fin
  · exact h

theorem w_wordLoop {post : Bool → Mem → Live → Prop} (hl : s .dest = some 0x2000000) (hj : s .lj92 = some (len + 128))
    (hh : len + 160 ≤ 0x2000000) (h : ∀ m b, post b m s) : ∀ {n i : Nat} {m : Mem}, 4 * (i + n) ≤ len →
      wp files (monLive len) (wordLoop n i) post m s
  | 0, _, _, _ => h _ true
  | n + 1, i, m, hi => by
    unfold wordLoop
    simp only [wp_mbind]
    refine w_load _ hl (by omega) (by omega) (.inl (by omega)) fun v _ => w_load _ hj (by omega) (by omega) (.inl (by omega)) fun v' _ => ?_
    split
    · simp only [wp_mbind]
      refine w_log <| w_log <| w_dump hl (by omega) (by omega) fun m => w_log <| w_dump hj (by omega) (by omega) fun m => h m false
    · exact w_wordLoop hl hj hh h (by omega)

theorem w_byteLoop {post : Bool → Mem → Live → Prop} (hl : s .dest = some 0x2000000) (hj : s .lj92 = some (len + 128))
    (hh : len + 160 ≤ 0x2000000) (h : ∀ m b, post b m s) : ∀ {n i : Nat} {m : Mem}, i + n ≤ len →
      wp files (monLive len) (byteLoop n i) post m s
  | 0, _, _, _ => h _ true
  | n + 1, i, m, hi => by
    unfold byteLoop
    simp only [wp_mbind]
    refine w_load _ hl (by omega) (by omega) (.inl (by omega)) fun v _ => w_load _ hj (by omega) (by omega) (.inl (by omega)) fun v' _ => ?_
    split
    · simp only [wp_mbind]
      refine w_log <| w_log <| w_dump hl (by omega) (by omega) fun m => w_log <| w_dump hj (by omega) (by omega) fun m => h m false
    · exact w_byteLoop hl hj hh h (by omega)

theorem w_validate {post : Unit → Mem → Live → Prop} (hl : s .dest = some 0x2000000) (hj : s .lj92 = some (len + 128))
    (hh : len + 160 ≤ 0x2000000) (h : ∀ m, post () m s) : wp files (monLive len) (validateMain len) post m s := by
  unfold validateMain
  simp only [wp_mbind]
  refine w_wordLoop hl hj hh (fun m b => ?_) (by omega)
  split
  · simp only [wp_mbind]
    refine w_byteLoop hl hj hh (fun m b => ?_) (by split <;> omega)
    split
    · exact w_log (h m)
    · exact h m
  · exact h m

theorem w_debug {post : List Nat → Mem → Live → Prop} (hl : s .core = some 65535) : ∀ {n i : Nat} {post : List Nat → Mem → Live → Prop},
    i + n ≤ 8 → (∀ l, post l m s) → wp files (monLive len) (readDebug n i) post m s
  | 0, _, _, _, h => h []
  | n + 1, i, _, hi, h => by
    unfold readDebug
    rw [wp_bind]
    refine w_load _ hl (by omega) (by omega) (.inl (by omega)) fun v _ => ?_
    rw [wp_bind]
    exact w_debug (post := post) hl (by omega) fun l => h _

theorem w_examine {c : Config} {post : Unit → Mem → Live → Prop} (hs : Ready len s) (h0 : 256 ≤ len) (hh : len + 160 ≤ 0x2000000)
    (h : ∀ m s, post () m s) : wp files (monLive len) (examine c len) post m s := by
  have hl : s .dest = some 0x2000000 := hs _ (by decide)
  have hj : s .lj92 = some (len + 128) := hs _ (by decide)
  unfold examine checkFirstMarker
  simp only [wp_mbind]
  refine w_log <| w_printStatus (hs _ (by decide)) <| w_log <| w_dump hj (by omega) (by omega) fun m => ?_
  refine w_log <| w_dump hl (by omega) (by omega) fun m => w_log <| w_dump hj (by omega) (by omega) fun m => ?_
  refine w_log <| w_dump hl (by omega) (by omega) fun m => w_log <| w_firstLoop hl (fun b => ?_) (by omega)
  have rest : wp files (monLive len) (log "Check for last marker.") (fun _ m s => wp files (monLive len) (checkLastMarker len)
      (fun _ m s => wp files (monLive len) (log "Validate data.") (fun _ m s => wp files (monLive len) (validateMain len)
      (fun _ m s => wp files (monLive len) (if (c.axiLite && c.debugReg) = true then do
          coreOpen c.axiLiteBase c.bitDepth
          printVector (← getDebug) "Debugging data."
        else pure ()) post m s) m s) m s) m s) m s := by
    refine w_log <| w_last hl hh <| w_log <| w_validate hl hj hh fun m => ?_
    split
    · simp only [wp_mbind]
      refine w_coreOpen hs fun _ s _ hc => ?_
      unfold getDebug
      rw [wp_bind]
      exact w_debug (post := fun _ _ _ => True) hc (by omega) fun l => w_print (h _ _)
    · exact h _ _
  split
  · exact w_log rest
  · exact rest

theorem w_main {c : Config} {argc rawSize ljSize : Nat} {post : Unit → Mem → Live → Prop} (h0 : 256 ≤ ljSize % 2 ^ 32)
    (hh : ljSize % 2 ^ 32 + 160 ≤ 0x2000000) (h : ∀ m s, post () m s) :
    wp files (monLive (ljSize % 2 ^ 32)) (main c argc rawSize ljSize) post m (fun _ => none) := by
  unfold main
  simp only [wp_mbind]
  refine w_prepare fun _ _ m => ?_
  refine w_setupCore (n := ljSize % 2 ^ 32) (fun _ _ => rfl) fun m s hs => ?_
  exact w_setupDma (hs _ (by decide)) fun m => w_waitDma (hs _ (by decide)) <| w_examine hs h0 hh fun m s => h m s

end

end Model.HostMain
