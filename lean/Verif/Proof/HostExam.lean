/- The host test program after the transfer: what it prints. -/
import Verif.Proof.HostFlow

set_option autoImplicit false

namespace Model.HostMain
open Spec Model.Host Props

/-- What `check_first_marker` prints. -/
def firstText (b : Bool) : String := if b then "marker found." else "No marker found."

def firstAll (d : Nat → Nat) : Nat → Nat → Bool
  | 0, _ => true
  | n + 1, i => load32 d (4 * i) == 0xFFFFFFFF && firstAll d n (i + 1)

def lastAll (d : Nat → Nat) (off : Nat) : Nat → Nat → Bool
  | 0, _ => true
  | n + 1, i => (load32 d (off + 4 * i) == 0xFFFFFFFF || load32 d (off + 4 * i) == forceWord) && lastAll d off n (i + 1)

theorem checkFirst_all (d : Nat → Nat) : checkFirst d = firstAll d 4 0 := by
  simp [checkFirst, firstAll, List.range, List.range.loop]

theorem lastAll_range (d : Nat → Nat) (off : Nat) :
    ((List.range 4).all fun i => load32 d (off + 4 * i) == 0xFFFFFFFF || load32 d (off + 4 * i) == forceWord) = lastAll d off 4 0 := by
  simp [lastAll, List.range, List.range.loop]

section
variable {c : Config} {files : Region → Nat → Nat} {len : Nat} {D : Option (Nat → Nat)} {B : Bool} {m : Mem} {s : Flow}

local notation "W" => wp files (monFlow c files len D B)

theorem Fin.say (h : Fin c len s) (l : List String) : Fin c len (s.say l) := h

theorem e_dest {off : Nat} {n : Nat} {post : Nat → Mem → Flow → Prop} (hF : Fin c len s)
    (h : ∀ v, (∀ d, D = some d → v = ldn (fun a => d a.toNat) (off : Int) n) → post v m s) : W (load .dest (off : Int) n) post m s :=
  fun v _ ha => ⟨hF, h v ha⟩

theorem e_dest32 {off : Nat} {post : Nat → Mem → Flow → Prop} (hF : Fin c len s)
    (h : ∀ v, (∀ d, D = some d → v = load32 d off) → post v m s) : W (load .dest (off : Int) 4) post m s :=
  e_dest hF fun v hv => h v fun d hd => by rw [hv d hd]; exact ldn_load32 fun j _ => by show d ((off + j : Nat) : Int).toNat = _; rw [Int.toNat_natCast]

theorem e_destDump {off : Int} {n : Nat} {post : Unit → Mem → Flow → Prop} (hF : Fin c len s) (h : post () m s) :
    W (memDump .dest off n) post m s := by
  unfold memDump
  refine wp_loop (fun _ m' s' => m' = m ∧ s' = s) n 0 ?_ ⟨rfl, rfl⟩ (fun m' s' e => by obtain ⟨rfl, rfl⟩ := e; exact h)
  intro j m' s' _ hj ⟨e, e'⟩
  subst e; subst e'
  rw [wp_bind]
  exact fun v _ _ => ⟨hF, rfl, rfl⟩

theorem e_refDump {off : Int} {n : Nat} {post : Unit → Mem → Flow → Prop} (h : post () m s) : W (memDump .lj92 off n) post m s := by
  unfold memDump
  refine wp_loop (fun _ m' s' => m' = m ∧ s' = s) n 0 ?_ ⟨rfl, rfl⟩ (fun m' s' e => by obtain ⟨rfl, rfl⟩ := e; exact h)
  intro j m' s' _ hj ⟨e, e'⟩
  subst e; subst e'
  rw [wp_bind]
  exact fun v _ _ => ⟨trivial, rfl, rfl⟩

theorem e_status {off : Nat} {post : List String → Mem → Flow → Prop} (hF : Fin c len s)
    (h : ∀ x s', Fin c len s' → s'.txt = s.txt → post x m s') : W (dmaStatus off) post m s := by
  unfold dmaStatus dmaGet
  rw [wp_bind]
  refine fun v _ _ => ⟨trivial, h _ _ ?_ ?_⟩
  · show Fin c len (flowStep s (.load .dma ((4 * (off / 4) : Nat) : Int) 4 v))
    obtain ⟨h1, h2, h3⟩ := hF
    simp only [flowStep]
    split
    · split
      · exact ⟨h1, rfl, h3⟩
      · split
        · exact ⟨h1, h2, rfl⟩
        · exact ⟨h1, h2, h3⟩
    · exact ⟨h1, h2, h3⟩
  · show (flowStep s (.load .dma ((4 * (off / 4) : Nat) : Int) 4 v)).txt = _
    simp only [flowStep]
    split
    · split
      · rfl
      · split <;> rfl
    · rfl

theorem e_printStatus {post : Unit → Mem → Flow → Prop} (hF : Fin c len s)
    (h : ∀ s', Fin c len s' → s.txt <+: s'.txt → post () m s') : W printStatus post m s := by
  unfold printStatus
  simp only [wp_mbind]
  refine e_status hF fun x s1 h1 e1 => f_print <| e_status (h1.say _) fun y s2 h2 e2 => f_print <| h _ (h2.say _) ?_
  show s.txt <+: s2.txt ++ _
  rw [e2]
  show s.txt <+: (s1.txt ++ _) ++ _
  rw [e1, List.append_assoc]
  exact List.prefix_append ..

theorem e_firstLoop {post : Bool → Mem → Flow → Prop} : ∀ {n i : Nat} {s : Flow}, Fin c len s →
    (∀ b s', Fin c len s' → (∀ d, D = some d → b = firstAll d n i) → s'.txt = s.txt ++ (if b then [] else ["No marker found."]) → post b m s') →
    W (firstLoop n i) post m s
  | 0, _, s, hF, h => h true s hF (fun _ _ => rfl) (by simp)
  | n + 1, i, s, hF, h => by
    unfold firstLoop
    rw [wp_bind]
    refine e_dest32 hF fun v hv => ?_
    split
    · next hne =>
      rw [wp_bind]
      refine f_log <| h false _ (hF.say _) (fun d hd => ?_) rfl
      have := hv d hd
      rw [this] at hne
      have hne : load32 d (4 * i) ≠ 0xFFFFFFFF := by simpa using hne
      simp [firstAll, hne]
    · next he =>
      refine e_firstLoop hF fun b s' h1 h2 h3 => h b s' h1 (fun d hd => ?_) h3
      have := hv d hd
      rw [this] at he
      have he : load32 d (4 * i) = 0xFFFFFFFF := by simpa using he
      rw [h2 d hd]
      simp [firstAll, he]

theorem e_first {post : Unit → Mem → Flow → Prop} (hF : Fin c len s)
    (h : ∀ b s', Fin c len s' → (∀ d, D = some d → b = checkFirst d) → s'.txt = s.txt ++ [firstText b] → post () m s') :
    W checkFirstMarker post m s := by
  unfold checkFirstMarker
  simp only [wp_mbind]
  refine e_firstLoop hF fun b s' h1 h2 h3 => ?_
  cases b
  · refine h false s' h1 (fun d hd => ?_) (by rw [h3]; rfl)
    rw [checkFirst_all]; exact h2 d hd
  · refine f_log <| h true _ (h1.say _) (fun d hd => ?_) ?_
    · rw [checkFirst_all]; exact h2 d hd
    · show s'.txt ++ _ = _
      rw [h3]; simp [firstText]

theorem e_search {post : Nat → Mem → Flow → Prop} (hF : Fin c len s) : ∀ {n off : Nat},
    (∀ o, (∀ d, D = some d → o = findLast d n off) → post o m s) → W (searchLoop n off) post m s
  | 0, off, h => h off fun _ _ => rfl
  | n + 1, off, h => by
    unfold searchLoop
    rw [wp_bind]
    refine e_dest32 hF fun v hv => ?_
    split
    · next he =>
      refine h off fun d hd => ?_
      rw [hv d hd] at he
      simp [findLast, show load32 d off = 0xFFFFFFFF by simpa using he]
    · next hne =>
      rw [wp_bind]
      refine e_dest32 hF fun v' hv' => ?_
      split
      · next he =>
        refine h off fun d hd => ?_
        rw [hv' d hd] at he
        simp [findLast, show load32 d off = forceWord by simpa using he]
      · next hne' =>
        refine e_search hF fun o ho => h o fun d hd => ?_
        rw [hv d hd] at hne
        rw [hv' d hd] at hne'
        rw [ho d hd]
        unfold findLast
        rw [if_neg (by simp only [Bool.not_eq_true, Bool.or_eq_false_iff]; exact ⟨by simpa using hne, by simpa using hne'⟩)]
        cases n <;> rfl

theorem e_lastLoop {off : Nat} {post : Bool → Mem → Flow → Prop} : ∀ {n i : Nat} {s : Flow}, Fin c len s →
    (∀ b s', Fin c len s' → (∀ d, D = some d → b = lastAll d off n i) → s'.txt = s.txt ++ (if b then [] else ["No marker found."]) → post b m s') →
    W (lastLoop off n i) post m s
  | 0, _, s, hF, h => h true s hF (fun _ _ => rfl) (by simp)
  | n + 1, i, s, hF, h => by
    unfold lastLoop
    rw [wp_bind]
    refine e_dest32 hF fun v hv => ?_
    split
    · next hne =>
      rw [wp_bind]
      refine e_dest32 hF fun v' hv' => ?_
      split
      · next hne' =>
        rw [wp_bind]
        refine f_log <| h false _ (hF.say _) (fun d hd => ?_) rfl
        rw [hv d hd] at hne
        rw [hv' d hd] at hne'
        simp [lastAll, show load32 d (off + 4 * i) ≠ 0xFFFFFFFF by simpa using hne, show load32 d (off + 4 * i) ≠ forceWord by simpa using hne']
      · next he =>
        refine e_lastLoop hF fun b s' h1 h2 h3 => h b s' h1 (fun d hd => ?_) h3
        rw [hv' d hd] at he
        rw [h2 d hd]
        simp [lastAll, show load32 d (off + 4 * i) = forceWord by simpa using he]
    · next he =>
      refine e_lastLoop hF fun b s' h1 h2 h3 => h b s' h1 (fun d hd => ?_) h3
      rw [hv d hd] at he
      rw [h2 d hd]
      simp [lastAll, show load32 d (off + 4 * i) = 0xFFFFFFFF by simpa using he]

theorem e_last {n : Nat} {post : Unit → Mem → Flow → Prop} (hF : Fin c len s)
    (h : ∀ s', Fin c len s' → (∀ d, D = some d → s'.txt = s.txt ++ [lastText (checkLast d n)]) → post () m s') :
    W (checkLastMarker n) post m s := by
  unfold checkLastMarker
  simp only [wp_mbind]
  refine e_search hF fun off ho => e_lastLoop hF fun b s1 h1 h2 h3 => ?_
  cases b
  · refine h s1 h1 fun d hd => ?_
    rw [h3]
    have hc : checkLast d n = .none := by
      unfold checkLast
      simp only
      rw [← ho d hd, lastAll_range, ← h2 d hd]
      simp
    rw [hc]; rfl
  · simp only [if_true, wp_mbind]
    refine e_dest32 h1 fun v hv => ?_
    have ht : s1.txt = s.txt := by rw [h3]; simp
    have key : ∀ d, D = some d → checkLast d n = if load32 d off = 0xFFFFFFFF then .normal (off - n - 16) else .force (off - n - 16) := by
      intro d hd
      unfold checkLast
      simp only
      rw [← ho d hd, lastAll_range, ← h2 d hd, if_pos rfl]
      by_cases e : load32 d off = 0xFFFFFFFF
      · simp [e]
      · simp [e]
    have one : ∀ d, D = some d → load32 d off = 0xFFFFFFFF ∨ load32 d off = forceWord := by
      intro d hd
      have := h2 d hd
      simp only [lastAll] at this
      have := this.symm
      rw [Bool.and_eq_true, Bool.or_eq_true] at this
      simpa using this.1
    split
    · next he =>
      simp only [wp_mbind]
      refine f_log <| e_dest32 (h1.say _) fun v' hv' => ?_
      split
      · next he' =>
        refine f_log <| h _ ((h1.say _).say _) fun d hd => ?_
        rw [hv d hd] at he
        rw [hv' d hd] at he'
        have a : load32 d off = 0xFFFFFFFF := by simpa using he
        have b : load32 d off = forceWord := by simpa using he'
        rw [a] at b; exact absurd b (by decide)
      · refine h _ (h1.say _) fun d hd => ?_
        rw [hv d hd] at he
        rw [key d hd, if_pos (by simpa using he)]
        show s1.txt ++ _ = _
        rw [ht]; rfl
    · next hne =>
      simp only [wp_mbind]
      refine e_dest32 h1 fun v' hv' => ?_
      split
      · refine f_log <| h _ (h1.say _) fun d hd => ?_
        rw [hv d hd] at hne
        rw [key d hd, if_neg (by simpa using hne)]
        show s1.txt ++ _ = _
        rw [ht]; rfl
      · next hne' =>
        refine h _ h1 fun d hd => ?_
        rw [hv d hd] at hne
        rw [hv' d hd] at hne'
        rcases one d hd with e | e
        · exact absurd e (by simpa using hne)
        · exact absurd e (by simpa using hne')

/-! ### The comparison -/

theorem load32_ne {a b : Nat → Nat} {x y : Nat} (h : load32 a x ≠ load32 b y) : ∃ j, j < 4 ∧ a (x + j) ≠ b (y + j) := by
  apply Classical.byContradiction
  intro hn
  have e : ∀ j, j < 4 → a (x + j) = b (y + j) := fun j hj => Classical.byContradiction fun hc => hn ⟨j, hj, hc⟩
  apply h
  have e0 := e 0 (by omega)
  have e1 := e 1 (by omega)
  have e2 := e 2 (by omega)
  have e3 := e 3 (by omega)
  simp only [Nat.add_zero] at e0
  unfold load32
  rw [e0, e1, e2, e3]

theorem swapped_lt {f : Nat → Nat} (hf : ∀ k, f k < 256) (n k : Nat) : swapped f n k < 256 := by
  unfold swapped
  generalize (if k % 2 = 0 then k + 1 else k - 1) = j
  have := hf j
  simp only
  split <;> omega

theorem e_wordLoop {post : Bool → Mem → Flow → Prop} (hg : Good c files len m) (hb : ∀ k, files .lj92 k < 256) :
    ∀ {n i : Nat} {s : Flow}, Fin c len s → 4 * (i + n) ≤ len →
    (∀ b s', Fin c len s' → (∀ d, D = some d → (∀ k, d k < 256) →
      (b = true ∧ s'.txt = s.txt ∧ ∀ k, 4 * i ≤ k → k < 4 * (i + n) → d (16 + k) = swapped (files .lj92) len k) ∨
      (b = false ∧ ∃ i' j, i' < i + n ∧ j < 4 ∧ (∀ k, 4 * i ≤ k → k < 4 * i' → d (16 + k) = swapped (files .lj92) len k) ∧
        d (16 + (4 * i' + j)) ≠ swapped (files .lj92) len (4 * i' + j) ∧
        s'.txt = s.txt ++ ["Validation failed at word: " ++ toString i', "Dump core", "Dump lj92"])) → post b m s') →
    W (wordLoop n i) post m s
  | 0, _, s, hF, _, h => h true s hF fun d _ _ => .inl ⟨rfl, rfl, fun k h1 h2 => by omega⟩
  | n + 1, i, s, hF, hi, h => by
    unfold wordLoop
    simp only [wp_mbind]
    refine e_dest32 hF fun a ha => f_buf (.inr rfl) ?_
    rw [ldn_load32 (d := swapped (files .lj92) len) fun j hj => hg.ref (4 * i + j) (by omega)]
    split
    · next hne =>
      simp only [wp_mbind]
      refine f_log <| f_log <| e_destDump (((hF.say _).say _)) <| f_log <| e_refDump <| h false _ (((hF.say _).say _).say _) fun d hd hdb => .inr ⟨rfl, i, ?_⟩
      rw [ha d hd] at hne
      obtain ⟨j, hj, hne⟩ := load32_ne (show load32 d (16 + 4 * i) ≠ load32 (swapped (files .lj92) len) (4 * i) by simpa using hne)
      refine ⟨j, by omega, hj, fun k h1 h2 => by omega, by rw [show 16 + (4 * i + j) = 16 + 4 * i + j by omega]; exact hne, ?_⟩
      show ((s.txt ++ _) ++ _) ++ _ = _
      simp
    · next he =>
      refine e_wordLoop hg hb hF (by omega) fun b s' h1 h2 => h b s' h1 fun d hd hdb => ?_
      rw [ha d hd] at he
      have he : load32 d (16 + 4 * i) = load32 (swapped (files .lj92) len) (4 * i) := by simpa using he
      rw [load32_inj hdb (swapped_lt hb len)] at he
      have near : ∀ k, 4 * i ≤ k → k < 4 * (i + 1) → d (16 + k) = swapped (files .lj92) len k := by
        intro k h1 h2
        have := he (k - 4 * i) (by omega)
        rw [show 16 + 4 * i + (k - 4 * i) = 16 + k by omega, show 4 * i + (k - 4 * i) = k by omega] at this
        exact this
      rcases h2 d hd hdb with ⟨e1, e2, e3⟩ | ⟨e1, i', j, e2, e3, e4, e5, e6⟩
      · refine .inl ⟨e1, e2, fun k h1 h2 => ?_⟩
        by_cases hk : k < 4 * (i + 1)
        · exact near k h1 hk
        · exact e3 k (by omega) (by omega)
      · refine .inr ⟨e1, i', j, by omega, e3, fun k h1 h2 => ?_, e5, e6⟩
        by_cases hk : k < 4 * (i + 1)
        · exact near k h1 hk
        · exact e4 k (by omega) h2

theorem e_byteLoop {post : Bool → Mem → Flow → Prop} (hg : Good c files len m) :
    ∀ {n i : Nat} {s : Flow}, Fin c len s → i + n ≤ len →
    (∀ b s', Fin c len s' → (∀ d, D = some d →
      (b = true ∧ s'.txt = s.txt ∧ ∀ k, i ≤ k → k < i + n → d (16 + k) = swapped (files .lj92) len k) ∨
      (b = false ∧ ∃ i', i ≤ i' ∧ i' < i + n ∧ (∀ k, i ≤ k → k < i' → d (16 + k) = swapped (files .lj92) len k) ∧
        d (16 + i') ≠ swapped (files .lj92) len i' ∧
        s'.txt = s.txt ++ ["Validation failed at byte: " ++ toString i', "Dump core", "Dump lj92"])) → post b m s') →
    W (byteLoop n i) post m s
  | 0, _, s, hF, _, h => h true s hF fun d _ => .inl ⟨rfl, rfl, fun k h1 h2 => by omega⟩
  | n + 1, i, s, hF, hi, h => by
    unfold byteLoop
    simp only [wp_mbind]
    refine e_dest hF fun a ha => f_buf (.inr rfl) ?_
    rw [ldn_one, hg.ref i (by omega)]
    split
    · next hne =>
      simp only [wp_mbind]
      refine f_log <| f_log <| e_destDump (((hF.say _).say _)) <| f_log <| e_refDump <| h false _ (((hF.say _).say _).say _) fun d hd => .inr ⟨rfl, i, ?_⟩
      rw [ha d hd, ldn_one, Int.toNat_natCast] at hne
      refine ⟨Nat.le_refl _, by omega, fun k h1 h2 => by omega, by simpa using hne, ?_⟩
      show ((s.txt ++ _) ++ _) ++ _ = _
      simp
    · next he =>
      refine e_byteLoop hg hF (by omega) fun b s' h1 h2 => h b s' h1 fun d hd => ?_
      rw [ha d hd, ldn_one, Int.toNat_natCast] at he
      have he : d (16 + i) = swapped (files .lj92) len i := by simpa using he
      rcases h2 d hd with ⟨e1, e2, e3⟩ | ⟨e1, i', e2, e3, e4, e5, e6⟩
      · refine .inl ⟨e1, e2, fun k h1 h2 => ?_⟩
        by_cases hk : k = i
        · rw [hk]; exact he
        · exact e3 k (by omega) (by omega)
      · refine .inr ⟨e1, i', by omega, by omega, fun k h1 h2 => ?_, e5, e6⟩
        by_cases hk : k = i
        · rw [hk]; exact he
        · exact e4 k (by omega) h2

theorem e_validate {post : Unit → Mem → Flow → Prop} (hg : Good c files len m) (hb : ∀ k, files .lj92 k < 256) (hF : Fin c len s)
    (h : ∀ s', Fin c len s' → (∀ d, D = some d → (∀ k, d k < 256) → 10 ≤ len →
      ∃ vs, Verdict d (swapped (files .lj92) len) len vs ∧ s'.txt = s.txt ++ vs) → post () m s') :
    W (validateMain len) post m s := by
  unfold validateMain
  simp only [wp_mbind]
  refine e_wordLoop hg hb hF (by omega) fun b s1 h1 h2 => ?_
  cases b
  · refine h s1 h1 fun d hd hdb _ => ?_
    rcases h2 d hd hdb with ⟨e, _⟩ | ⟨_, i', j, e2, e3, e4, e5, e6⟩
    · cases e
    · exact ⟨_, .word i' j (by omega) (fun k hk => e4 k (by omega) hk) e3 e5, e6⟩
  · simp only [if_true, wp_mbind]
    refine e_byteLoop hg h1 (by split <;> omega) fun b s2 h3 h4 => ?_
    have words : ∀ d, D = some d → (∀ k, d k < 256) → s1.txt = s.txt ∧ ∀ k, k < 4 * (len / 4) → d (16 + k) = swapped (files .lj92) len k := by
      intro d hd hdb
      rcases h2 d hd hdb with ⟨_, e2, e3⟩ | ⟨e, _⟩
      · exact ⟨e2, fun k hk => e3 k (by omega) (by omega)⟩
      · cases e
    cases b
    · refine h s2 h3 fun d hd hdb h10 => ?_
      obtain ⟨w1, w2⟩ := words d hd hdb
      rcases h4 d hd with ⟨e, _⟩ | ⟨_, i', e2, e3, e4, e5, e6⟩
      · cases e
      · rw [if_pos h10] at e3
        refine ⟨_, .byte i' (by omega) (fun k hk => ?_) e5, by rw [e6, w1]⟩
        by_cases hw : k < 4 * (len / 4)
        · exact w2 k hw
        · exact e4 k (by omega) hk
    · refine f_log <| h _ (h3.say _) fun d hd hdb h10 => ?_
      obtain ⟨w1, w2⟩ := words d hd hdb
      rcases h4 d hd with ⟨_, e2, e3⟩ | ⟨e, _⟩
      · rw [if_pos h10] at e3
        refine ⟨_, .ok fun k hk => ?_, by show s2.txt ++ _ = _; rw [e2, w1]⟩
        by_cases hw : k < 4 * (len / 4)
        · exact w2 k hw
        · exact e3 k (by omega) (by omega)
      · cases e

theorem e_debug : ∀ {n i : Nat} {post : List Nat → Mem → Flow → Prop}, (∀ l, l.length = n → post l m s) → W (readDebug n i) post m s
  | 0, _, _, h => h [] rfl
  | n + 1, i, _, h => by
    unfold readDebug
    rw [wp_bind]
    refine fun v _ _ => ⟨trivial, ?_⟩
    show wp files (monFlow c files len D B) ((readDebug n (i + 1)).bind fun l => P.ret (v :: l)) _ m s
    rw [wp_bind]
    exact e_debug fun l hl => h (v :: l) (by simp [hl])

/-- What a finished run has printed. -/
def Printed (c : Config) (files : Region → Nat → Nat) (len : Nat) (d : Nat → Nat) (txt : List String) : Prop :=
  ∃ pre vs post, txt = pre ++ ["Check for first marker.", firstText (checkFirst d), "Check for last marker.", lastText (checkLast d len),
      "Validate data."] ++ vs ++ post ∧ Verdict d (swapped (files .lj92) len) len vs ∧
    (if c.axiLite && c.debugReg then ∃ l : List Nat, l.length = 8 ∧ post = debugText l else post = [])

theorem e_examine {post : Unit → Mem → Flow → Prop} (hg : Good c files len m) (hb : ∀ k, files .lj92 k < 256) (hF : Fin c len s)
    (h : ∀ s', Fin c len s' → (∀ d, D = some d → (∀ k, d k < 256) → 10 ≤ len → Printed c files len d s'.txt) → post () m s') :
    W (examine c len) post m s := by
  unfold examine
  simp only [wp_mbind]
  refine f_log <| e_printStatus (hF.say _) fun s1 h1 _ => f_log <| e_refDump <| f_log <| e_destDump ((h1.say _).say _) <| f_log <| e_refDump <|
    f_log <| e_destDump ((((h1.say _).say _).say _).say _) <| f_log ?_
  generalize hs2 : (((s1.say _).say _).say _).say _ = s2
  have h2 : Fin c len s2 := by rw [← hs2]; exact h1
  refine e_first (h2.say _) fun b s3 h3 e3 t3 => f_log <| e_last (h3.say _) fun s4 h4 t4 => f_log <| e_validate hg hb (h4.say _) fun s5 h5 t5 => ?_
  have fin : ∀ d, D = some d → (∀ k, d k < 256) → 10 ≤ len → ∃ vs, s5.txt = s2.txt ++ ["Check for first marker.", firstText (checkFirst d),
      "Check for last marker.", lastText (checkLast d len), "Validate data."] ++ vs ∧ Verdict d (swapped (files .lj92) len) len vs := by
    intro d hd hdb h10
    obtain ⟨vs, hv, e⟩ := t5 d hd hdb h10
    refine ⟨vs, ?_, hv⟩
    have e4 := t4 d hd
    have e3' := e3 d hd
    rw [e]
    show (s4.txt ++ _) ++ _ = _
    rw [e4]
    show ((s3.txt ++ _) ++ _ ++ _) ++ _ = _
    rw [t3]
    show ((((s2.txt ++ _) ++ _) ++ _) ++ _ ++ _) ++ _ = _
    rw [e3']; simp
  split
  · next hc =>
    simp only [wp_mbind]
    refine f_coreOpen (.inr h5) ?_
    unfold getDebug
    rw [wp_bind]
    refine e_debug fun l hl => f_print <| h _ (h5.say _) fun d hd hdb h10 => ?_
    obtain ⟨vs, e, hv⟩ := fin d hd hdb h10
    refine ⟨s2.txt, vs, debugText l, ?_, hv, by rw [if_pos hc]; exact ⟨l, hl, rfl⟩⟩
    show s5.txt ++ _ = _
    rw [e]; rfl
  · next hc =>
    refine h _ h5 fun d hd hdb h10 => ?_
    obtain ⟨vs, e, hv⟩ := fin d hd hdb h10
    exact ⟨s2.txt, vs, [], by rw [e]; simp, hv, by rw [if_neg hc]⟩

theorem f_main {argc rawSize ljSize : Nat} (hb : ∀ r k, files r k < 256) (hs : s.dma = []) :
    wp files (monFlow c files (ljSize % 2 ^ 32) D B) (main c argc rawSize ljSize) (fun _ _ s' => Fin c (ljSize % 2 ^ 32) s' ∧
      ∀ d, D = some d → (∀ k, d k < 256) → 10 ≤ ljSize % 2 ^ 32 → Printed c files (ljSize % 2 ^ 32) d s'.txt) m s := by
  unfold main
  simp only [wp_mbind]
  refine f_prepare hb hs fun m s hs hg => f_setupCore hs hg fun m s hs hg hz => ?_
  refine f_setupDma ⟨hs, hg, hz⟩ fun m s hs => f_waitDma hs fun s hs hF => e_examine hs.good (hb _) hF fun s' h1 h2 => ⟨h1, h2⟩

end

end Model.HostMain
