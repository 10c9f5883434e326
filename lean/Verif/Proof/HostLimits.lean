/- Runs of the host test program that leave its memories, and runs that finish. -/
import Verif.Proof.HostInside

set_option autoImplicit false

namespace Model.HostMain
open Spec Model.Host

section
variable {α β : Type} {files : Region → Nat → Nat}

/-- A finished run of a sequence. -/
theorem run_split {p : P α} {f : α → P β} : ∀ {b : β} {m m' : Mem} {t : List Ev}, Run files (p.bind f) m t (some b) m' →
    ∃ t1 t2 a m1, t = t1 ++ t2 ∧ Run files p m t1 (some a) m1 ∧ Run files (f a) m1 t2 (some b) m' := by
  induction p with
  | ret a => intro b m m' t h; exact ⟨[], t, a, m, rfl, .ret, h⟩
  | load r off n k ih =>
    intro b m m' t h
    cases h with
    | load ok h =>
      obtain ⟨t1, t2, a, m1, e, h1, h2⟩ := ih _ h
      exact ⟨_ :: t1, t2, a, m1, by rw [e]; rfl, .load ok h1, h2⟩
  | act e k ih =>
    intro b m m' t h
    cases h with
    | act h =>
      obtain ⟨t1, t2, a, m1, e, h1, h2⟩ := ih h
      exact ⟨_ :: t1, t2, a, m1, by rw [e]; rfl, .act h1, h2⟩
  | ask k ih =>
    intro b m m' t h
    cases h with
    | ask h =>
      obtain ⟨t1, t2, a, m1, e, h1, h2⟩ := ih _ h
      exact ⟨t1, t2, a, m1, e, .ask h1, h2⟩
  | wait r off n d k ih =>
    intro b m m' t h
    have : ∀ {q : P β} {m : Mem} {t : List Ev} {o : Option β} {m' : Mem}, Run files q m t o m' → q = (P.wait r off n d k).bind f → ∀ b, o = some b →
        ∃ t1 t2 a m1, t = t1 ++ t2 ∧ Run files (P.wait r off n d k) m t1 (some a) m1 ∧ Run files (f a) m1 t2 (some b) m' := by
      intro q m t o m' h
      induction h with
      | stop => intro _ b hb; cases hb
      | ret => intro hq; cases hq
      | die => intro hq; cases hq
      | load => intro hq; cases hq
      | act => intro hq; cases hq
      | ask => intro hq; cases hq
      | more ok hd h ih2 =>
        intro hq b hb
        cases hq
        obtain ⟨t1, t2, a, m1, e, h1, h2⟩ := ih2 rfl b hb
        exact ⟨_ :: t1, t2, a, m1, by rw [e]; rfl, .more ok hd h1, h2⟩
      | done ok hd h _ =>
        intro hq b hb
        cases hq
        subst hb
        obtain ⟨t1, t2, a, m1, e, h1, h2⟩ := ih h
        exact ⟨_ :: t1, t2, a, m1, by rw [e]; rfl, .done ok hd h1, h2⟩
    exact this h rfl b rfl
  | die =>
    intro b m m' t h
    cases h

theorem run_msplit {p : P α} {f : α → P β} {b : β} {m m' : Mem} {t : List Ev} (h : Run files (p >>= f) m t (some b) m') :
    ∃ t1 t2 a m1, t = t1 ++ t2 ∧ Run files p m t1 (some a) m1 ∧ Run files (f a) m1 t2 (some b) m' := run_split h

/-! ### Up to the examination -/

variable {c : Config} {argc rawSize ljSize : Nat} {m m' : Mem} {t : List Ev}

theorem live_fold {p : P α} {a : α} {len : Nat} {live : Live} {post : α → Mem → Live → Prop} (h : Run files p m t (some a) m')
    (hw : wp files (monLive len) p post m live) : post a m' (t.foldl liveStep live) :=
  (wp_sound h hw (keeps_of fun _ _ _ _ => trivial)).2.2 a rfl

/-- The examination starts with the memories in place. -/
theorem run_to_examine (h : Run files (main c argc rawSize ljSize) m t (some ()) m') :
    ∃ t1 t2 m1, t = t1 ++ t2 ∧ Run files (examine c (ljSize % 2 ^ 32)) m1 t2 (some ()) m' ∧ Ready (ljSize % 2 ^ 32) (liveAfter t1) := by
  unfold main at h
  obtain ⟨t1, _, n, m1, rfl, h1, h⟩ := run_msplit h
  obtain ⟨t2, _, _, m2, rfl, h2, h⟩ := run_msplit h
  obtain ⟨t3, _, _, m3, rfl, h3, h⟩ := run_msplit h
  obtain ⟨t4, t5, _, m4, rfl, h4, h⟩ := run_msplit h
  have l1 := live_fold (len := 0) h1 (w_prepare (post := fun a _ s => a = ljSize % 2 ^ 32 ∧ s = ready (ljSize % 2 ^ 32)) fun _ _ _ => ⟨rfl, rfl⟩)
  obtain ⟨rfl, l1⟩ := l1
  have r1 : Ready (ljSize % 2 ^ 32) (t1.foldl liveStep fun _ => none) := fun r _ => by rw [l1]
  have r2 := live_fold (len := 0) h2 (w_setupCore (post := fun _ _ s => Ready (ljSize % 2 ^ 32) s) r1 fun _ _ h => h)
  have r3 := live_fold (len := 0) h3 (w_setupDma (c := c) (n := ljSize % 2 ^ 32) (post := fun _ _ s => Ready (ljSize % 2 ^ 32) s) (r2 _ (by decide)) fun _ => r2)
  have r4 := live_fold (len := 0) h4 (w_waitDma (post := fun _ _ s => Ready (ljSize % 2 ^ 32) s) (r3 _ (by decide)) r3)
  refine ⟨t1 ++ (t2 ++ (t3 ++ t4)), t5, m4, by simp, h, ?_⟩
  unfold liveAfter
  rw [List.foldl_append, List.foldl_append, List.foldl_append]
  exact r4

/-- Nothing is mapped, allocated or freed. -/
def Quiet (t : List Ev) : Prop := ∀ live, t.foldl liveStep live = live

theorem Quiet.append {a b : List Ev} (ha : Quiet a) (hb : Quiet b) : Quiet (a ++ b) := fun live => by
  rw [List.foldl_append, ha, hb]

theorem quiet_log {x : String} (h : Run files (log x) m t (some ()) m') : Quiet t := by
  unfold log at h
  cases h with
  | act h => cases h; intro _; rfl

theorem quiet_loop {f : Nat → P Unit} (hf : ∀ j m t m', Run files (f j) m t (some ()) m' → Quiet t) : ∀ {n i : Nat} {m m' : Mem} {t : List Ev},
    Run files (loop f n i) m t (some ()) m' → Quiet t
  | 0, _, _, _, _, h => by cases h; intro _; rfl
  | n + 1, i, _, _, _, h => by
    unfold loop at h
    obtain ⟨t1, t2, _, m1, rfl, h1, h2⟩ := run_split h
    exact (hf _ _ _ _ h1).append (quiet_loop hf h2)

theorem quiet_dump {r : Region} {off : Int} {n : Nat} (h : Run files (memDump r off n) m t (some ()) m') : Quiet t := by
  unfold memDump at h
  refine quiet_loop ?_ h
  intro j m t m' h
  cases h with
  | load _ h => cases h; intro _; rfl

theorem quiet_print {l : List String} {x : String} (h : Run files (printVector l x) m t (some ()) m') : Quiet t := by
  unfold printVector at h
  revert h
  generalize x :: l = l'
  intro h
  induction l' generalizing m t with
  | nil => cases h; intro _; rfl
  | cons a l ih =>
    cases h with
    | act h => intro live; exact ih h live

theorem quiet_status {off : Nat} {x : List String} (h : Run files (dmaStatus off) m t (some x) m') : Quiet t := by
  unfold dmaStatus dmaGet load at h
  cases h with
  | load _ h => cases h; intro _; rfl

theorem quiet_printStatus (h : Run files printStatus m t (some ()) m') : Quiet t := by
  unfold printStatus at h
  obtain ⟨t1, _, _, _, rfl, h1, h⟩ := run_msplit h
  obtain ⟨t2, _, _, _, rfl, h2, h⟩ := run_msplit h
  obtain ⟨t3, t4, _, _, rfl, h3, h⟩ := run_msplit h
  exact (quiet_status h1).append ((quiet_print h2).append ((quiet_status h3).append (quiet_print h)))

/-- Every byte of a dump is loaded. -/
theorem dump_loads {r : Region} {off : Int} : ∀ {n i : Nat} {m m' : Mem} {t : List Ev},
    Run files (loop (fun i => (load r (off + i) 1).bind fun _ => .ret ()) n i) m t (some ()) m' → ∀ j, i ≤ j → j < i + n →
    ∃ t1 v t2, t = t1 ++ .load r (off + j) 1 v :: t2 ∧ Quiet t1
  | 0, _, _, _, _, _, j, h1, h2 => by omega
  | n + 1, i, _, _, _, h, j, h1, h2 => by
    unfold loop at h
    obtain ⟨t1, t2, _, m1, rfl, ha, hb⟩ := run_split h
    cases ha with
    | load ok ha =>
      cases ha
      by_cases e : j = i
      · subst e
        exact ⟨[], _, t2, rfl, fun _ => rfl⟩
      · obtain ⟨a, v, b, rfl, hq⟩ := dump_loads hb j (by omega) (by omega)
        exact ⟨_ :: a, v, b, rfl, fun live => hq live⟩

/-- The loads of the two dumps of the last 256 bytes. -/
theorem examine_dumps {len : Nat} (h : Run files (examine c len) m t (some ()) m') (j : Nat) (hj : j < 256) :
    (∃ t1 v t2, t = t1 ++ .load .lj92 ((len : Int) - 256 + j) 1 v :: t2 ∧ Quiet t1) ∧
    (∃ t1 v t2, t = t1 ++ .load .dest ((len : Int) - 256 + 16 + j) 1 v :: t2 ∧ Quiet t1) := by
  unfold examine at h
  obtain ⟨t1, _, _, _, rfl, h1, h⟩ := run_msplit h
  obtain ⟨t2, _, _, _, rfl, h2, h⟩ := run_msplit h
  obtain ⟨t3, _, _, _, rfl, h3, h⟩ := run_msplit h
  obtain ⟨t4, _, _, _, rfl, h4, h⟩ := run_msplit h
  obtain ⟨t5, _, _, _, rfl, h5, h⟩ := run_msplit h
  obtain ⟨t6, _, _, _, rfl, h6, h⟩ := run_msplit h
  obtain ⟨t7, _, _, _, rfl, h7, h⟩ := run_msplit h
  obtain ⟨t8, _, _, _, rfl, h8, h⟩ := run_msplit h
  obtain ⟨t9, _, _, _, rfl, h9, h⟩ := run_msplit h
  obtain ⟨t10, t11, _, _, rfl, h10, h⟩ := run_msplit h
  have q := (quiet_log h1).append ((quiet_printStatus h2).append ((quiet_log h3).append ((quiet_dump h4).append ((quiet_log h5).append
    ((quiet_dump h6).append (quiet_log h7))))))
  have q8 := quiet_dump h8
  have q9 := quiet_log h9
  unfold memDump at h8 h10
  obtain ⟨a, v, b, rfl, qa⟩ := dump_loads h8 j (by omega) (by omega)
  obtain ⟨a', v', b', rfl, qa'⟩ := dump_loads h10 j (by omega) (by omega)
  refine ⟨⟨t1 ++ (t2 ++ (t3 ++ (t4 ++ (t5 ++ (t6 ++ t7))))) ++ a, v, b ++ (t9 ++ ((a' ++ _ :: b') ++ t11)), by simp; rfl, q.append qa⟩,
    ⟨t1 ++ (t2 ++ (t3 ++ (t4 ++ (t5 ++ (t6 ++ t7))))) ++ ((a ++ .load .lj92 ((len : Int) - 256 + j) 1 v :: b) ++ (t9 ++ a')), v', b' ++ t11,
      by simp, q.append (q8.append (q9.append qa'))⟩⟩

/-! ### Finishing -/

/-- A 32-bit access, as far as the registers of the core are concerned. -/
def Word : Ev → Prop
  | .store .core _ _ v => v < 2 ^ 32
  | .load .. => False
  | _ => True

/-- The run can be brought to its end whatever the loads give. -/
def nd : P α → (α → Prop) → Prop
  | .ret a, post => post a
  | .load r _ n k, post => (r = .core → n = 4) ∧ ∀ v, nd (k v) post
  | .act e k, post => Word e ∧ nd k post
  | .ask k, post => ∃ b, nd (k b) post
  | .wait r _ n d k, post => r = .dma ∧ (∃ v, v < 256 ^ n ∧ d v = true) ∧ nd k post
  | .die, _ => False

theorem loadOk_some (m : Mem) (r : Region) (off : Int) (n : Nat) : ∃ v, LoadOk m r off n v := by
  cases r
  · exact ⟨_, rfl⟩
  · exact ⟨_, rfl⟩
  · exact ⟨_, rfl⟩
  · exact ⟨0, Nat.pow_pos (by decide)⟩
  · exact ⟨0, Nat.pow_pos (by decide)⟩
  · exact ⟨0, Nat.pow_pos (by decide)⟩

theorem ldn_lt {f : Int → Nat} (hf : ∀ a, f a < 256) : ∀ (n : Nat) (off : Int), ldn f off n < 256 ^ n
  | 0, _ => Nat.one_pos
  | n + 1, off => by
    have := ldn_lt hf n (off + 1)
    have := hf off
    unfold ldn
    rw [Nat.pow_succ]
    omega

theorem lastStore_snoc {r : Region} {off : Int} {t : List Ev} {e : Ev} : lastStore r off (t ++ [e]) =
    match e with
    | .store r' off' _ v => if r' = r ∧ off' = off then some v else lastStore r off t
    | _ => lastStore r off t := by
  unfold lastStore
  rw [List.foldl_append, List.foldl_cons, List.foldl_nil]
  cases e <;> rfl

/-- A run where the destination region reads as `d` and the registers of the core read back. -/
theorem nd_run {d : Nat → Nat} (hd : ∀ k, d k < 256) {p : P α} {post : α → Prop} : ∀ {m : Mem} {t0 : List Ev},
    nd p post → (∀ off x, lastStore .core off t0 = some x → x < 2 ^ 32) → ∃ t a m', Run files p m t (some a) m' ∧ post a ∧
      (∀ off n v, Ev.load .dest off n v ∈ t → v = ldn (fun a => d a.toNat) off n) ∧
      ∀ t1 t2 off n v x, t = t1 ++ .load .core off n v :: t2 → lastStore .core off (t0 ++ t1) = some x → v = x := by
  induction p with
  | ret a => intro m t0 h _; exact ⟨[], a, m, .ret, h, fun _ _ _ h => (by cases h), fun t1 _ _ _ _ _ h => (by cases t1 <;> cases h)⟩
  | load r off n k ih =>
    intro m t0 h h0
    obtain ⟨hn, h⟩ := h
    obtain ⟨v, hv, h1, h2⟩ : ∃ v, LoadOk m r off n v ∧ (r = .dest → v = ldn (fun a => d a.toNat) off n) ∧
        (r = .core → ∀ x, lastStore .core off t0 = some x → v = x) := by
      cases r with
      | dest => exact ⟨_, ldn_lt (fun _ => hd _) _ _, fun _ => rfl, fun h => (by cases h)⟩
      | core =>
        cases hl : lastStore .core off t0 with
        | none => exact ⟨0, Nat.pow_pos (by decide), fun h => (by cases h), fun _ _ h => (by cases h)⟩
        | some x =>
          refine ⟨x, ?_, fun h => (by cases h), fun _ y h => (by cases h; rfl)⟩
          have := h0 _ _ hl
          have := hn rfl
          subst this
          show x < 256 ^ 4
          omega
      | dma => exact ⟨0, Nat.pow_pos (by decide), fun h => (by cases h), fun h => (by cases h)⟩
      | _ => exact ⟨_, rfl, fun h => (by cases h), fun h => (by cases h)⟩
    obtain ⟨t, a, m', hr, hp, hd1, hd2⟩ := ih v (m := m) (t0 := t0 ++ [.load r off n v]) (h v) (fun off' x hx => by
      rw [lastStore_snoc] at hx; exact h0 _ _ hx)
    refine ⟨_, a, m', .load hv hr, hp, ?_, ?_⟩
    · intro off' n' v' hm
      rcases List.mem_cons.1 hm with e | hm
      · cases e; exact h1 rfl
      · exact hd1 _ _ _ hm
    · intro t1 t2 off' n' v' x ht hx
      cases t1 with
      | nil =>
        cases ht
        rw [List.append_nil] at hx
        exact h2 rfl x hx
      | cons e t1 =>
        cases ht
        exact hd2 t1 t2 off' n' v' x rfl (by rw [List.append_assoc]; exact hx)
  | act e k ih =>
    intro m t0 h h0
    obtain ⟨t, a, m', hr, hp, hd1, hd2⟩ := ih (m := effect files e m) (t0 := t0 ++ [e]) h.2 (fun off' x hx => by
      rw [lastStore_snoc] at hx
      have hw := h.1
      cases e with
      | store r off n v =>
        dsimp only at hx
        by_cases hc : r = .core ∧ off = off'
        · rw [if_pos hc] at hx
          obtain ⟨rfl, rfl⟩ := hc
          cases hx
          exact hw
        · rw [if_neg hc] at hx
          exact h0 _ _ hx
      | _ => exact h0 _ _ hx)
    cases e with
    | load r off n v => exact absurd h.1 id
    | _ =>
      refine ⟨_, a, m', .act hr, hp, ?_, ?_⟩
      · intro off' n' v' hm
        rcases List.mem_cons.1 hm with e | hm
        · cases e
        · exact hd1 _ _ _ hm
      · intro t1 t2 off' n' v' x ht hx
        cases t1 with
        | nil => cases ht
        | cons e t1 =>
          cases ht
          exact hd2 t1 t2 off' n' v' x rfl (by rw [List.append_assoc]; exact hx)
  | ask k ih => intro m t0 h h0; obtain ⟨b, h⟩ := h; obtain ⟨t, a, m', hr, hp⟩ := ih b h h0; exact ⟨t, a, m', .ask hr, hp⟩
  | wait r off n dn k ih =>
    intro m t0 h h0
    obtain ⟨rfl, ⟨v, hv, hdn⟩, h⟩ := h
    obtain ⟨t, a, m', hr, hp, hd1, hd2⟩ := ih (m := m) (t0 := t0 ++ [.load .dma off n v]) h (fun off' x hx => by
      rw [lastStore_snoc] at hx; exact h0 _ _ hx)
    refine ⟨_, a, m', .done hv hdn hr, hp, ?_, ?_⟩
    · intro off' n' v' hm
      rcases List.mem_cons.1 hm with e | hm
      · cases e
      · exact hd1 _ _ _ hm
    · intro t1 t2 off' n' v' x ht hx
      cases t1 with
      | nil => cases ht
      | cons e t1 =>
        cases ht
        exact hd2 t1 t2 off' n' v' x rfl (by rw [List.append_assoc]; exact hx)
  | die => intro m t0 h; exact absurd h id

theorem nd_bind {p : P α} {f : α → P β} {post : β → Prop} : nd (p.bind f) post ↔ nd p fun a => nd (f a) post := by
  induction p with
  | ret a => exact Iff.rfl
  | load r off n k ih => simp only [P.bind, nd, ih]
  | act e k ih => simp only [P.bind, nd, ih]
  | ask k ih => simp only [P.bind, nd, ih]
  | wait r off n d k ih => simp only [P.bind, nd, ih]
  | die => exact Iff.rfl

theorem nd_mbind {p : P α} {f : α → P β} {post : β → Prop} : nd (p >>= f) post ↔ nd p fun a => nd (f a) post := nd_bind

theorem nd_mono {p : P α} {post post' : α → Prop} (hp : ∀ a, post a → post' a) : nd p post → nd p post' := by
  induction p with
  | ret a => exact hp a
  | load r off n k ih => intro h; exact ⟨h.1, fun v => ih v (h.2 v)⟩
  | act e k ih => intro h; exact ⟨h.1, ih h.2⟩
  | ask k ih => intro ⟨b, h⟩; exact ⟨b, ih b h⟩
  | wait r off n d k ih => intro ⟨h1, h2, h3⟩; exact ⟨h1, h2, ih h3⟩
  | die => exact id

theorem nd_loop {f : Nat → P Unit} {post : Unit → Prop} (hf : ∀ j, nd (f j) fun _ => True) (h : post ()) : ∀ (n i : Nat), nd (loop f n i) post
  | 0, _ => h
  | n + 1, i => by
    unfold loop
    rw [nd_bind]
    exact nd_mono (fun _ _ => nd_loop hf h n (i + 1)) (hf i)

theorem nd_log {x : String} {post : Unit → Prop} (h : post ()) : nd (log x) post := ⟨trivial, h⟩
theorem nd_load {r : Region} {off : Int} {n : Nat} {post : Nat → Prop} (h : ∀ v, post v) (hn : r = .core → n = 4 := by decide) : nd (load r off n) post := ⟨hn, h⟩
theorem nd_store {r : Region} {off : Int} {n v : Nat} {post : Unit → Prop} (h : post ()) (hr : r ≠ .core := by decide) : nd (store r off n v) post := ⟨by cases r <;> first | trivial | exact absurd rfl hr, h⟩

theorem nd_ok {x : String} {post : Unit → Prop} (h : post ()) : nd (sys >>= fun b => assertTerm b x) post := ⟨true, h⟩

theorem nd_assert {b : Bool} {x : String} {post : Unit → Prop} (hb : b = true) (h : post ()) : nd (assertTerm b x) post := by
  subst hb; exact h

theorem nd_sys {post : Bool → Prop} (h : post true) : nd sys post := ⟨true, h⟩

/-- All stores are of 32 bits. -/
def Small {α : Type} : Prog α → Prop
  | .ret _ => True
  | .get _ k => ∀ v, Small (k v)
  | .set _ v k => v < 2 ^ 32 ∧ Small k

theorem nd_prog {α : Type} : ∀ (p : Prog α) {post : α → Prop}, Small p → (∀ a, post a) → nd (ofProg p) post
  | .ret a, _, _, h => h a
  | .get _ k, _, hs, h => ⟨fun _ => rfl, fun v => nd_prog (k v) (hs v) h⟩
  | .set _ _ k, _, hs, h => ⟨hs.1, nd_prog k hs.2 h⟩

theorem low16 (v : Nat) : v &&& 0xFFFF < 2 ^ 16 := by
  have := Nat.and_le_right (n := v) (m := 0xFFFF)
  omega

theorem small_width : Small (setWidth 4096 (.ret ())) := fun v => ⟨by
  have := low16 v
  exact Nat.or_lt_two_pow (by decide) (by omega), trivial⟩

theorem small_height : Small (setHeight 3072 (.ret ())) := fun v => ⟨by
  refine Nat.or_lt_two_pow ?_ (by decide)
  rw [Nat.shiftLeft_eq]
  have := Nat.mod_lt (v >>> 16) (show 0 < 2 ^ 16 by decide)
  omega, trivial⟩

theorem small_codes {α : Type} : ∀ (n i : Nat) (k : List Nat → Prog α), (∀ l, Small (k l)) → Small (readCodes n i k)
  | 0, _, _, h => h _
  | n + 1, i, _, h => fun _ => fun _ => small_codes n (i + 1) _ fun _ => h _

theorem nd_pure {a : α} {post : α → Prop} (h : post a) : nd (pure a) post := h
theorem nd_ret {a : α} {post : α → Prop} (h : post a) : nd (P.ret a) post := h
theorem nd_clear {r : Region} {post : Unit → Prop} (h : post ()) : nd (clearMemData r) post := ⟨trivial, h⟩
theorem nd_act {e : Ev} {post : Unit → Prop} (h : post ()) (hw : Word e) : nd (.act e (.ret ())) post := ⟨hw, h⟩
theorem nd_says {x : String} {p : P α} {post : α → Prop} (h : nd p post) : nd (.act (.say x) p) post := ⟨trivial, h⟩
theorem nd_sync {off : Nat} {post : Unit → Prop} (h : post ()) : nd (dmaSync off) post := ⟨rfl, ⟨0x1002, by decide, by decide⟩, h⟩
theorem nd_status {off : Nat} {post : List String → Prop} (h : ∀ l, post l) : nd (dmaStatus off) post := ⟨fun h => (by cases h), fun _ => h _⟩

attribute [local irreducible] nd

theorem nd_dump {r : Region} {off : Int} {n : Nat} {post : Unit → Prop} (h : post ()) (hr : r ≠ .core := by decide) : nd (memDump r off n) post := by
  unfold memDump
  exact nd_loop (fun j => nd_bind.2 (nd_load (hn := fun h => absurd h hr) fun _ => nd_ret trivial)) h _ _

theorem nd_print {l : List String} {x : String} {post : Unit → Prop} (h : post ()) : nd (printVector l x) post := by
  unfold printVector
  generalize x :: l = l'
  induction l' with
  | nil => exact nd_ret h
  | cons a l ih => exact nd_says ih

theorem nd_mmap {r : Region} {b n : Nat} {post : Unit → Prop} (h : post ()) : nd (mmap r b n) post := by
  unfold mmap
  simp only [nd_mbind]
  exact nd_sys <| nd_assert rfl <| nd_act h trivial

theorem nd_open {post : Unit → Prop} (h : post ()) : nd openMem post := by
  unfold openMem
  exact nd_ok h

theorem nd_loadFile {r : Region} {size : Nat} {post : Nat → Prop} (hr : r ≠ .core) (h0 : 0 < size % 2 ^ 32) (h1 : size % 2 ^ 32 < 2 ^ 31)
    (h : post (size % 2 ^ 32)) : nd (loadFile r size) post := by
  unfold loadFile
  simp only [nd_mbind]
  exact nd_sys <| nd_assert rfl <| nd_assert (decide_eq_true ⟨h0, h1⟩) <| nd_sys <| nd_assert rfl <| nd_sys <| nd_assert rfl <| nd_act (hw := trivial) <| nd_sys <| by
    rw [if_pos rfl]; exact nd_bind.2 <| nd_act (hw := trivial) <| nd_bind.2 <| nd_store (hr := hr) <| nd_pure h

theorem nd_pair {k : Nat} {post : Nat × Nat → Prop} (h : ∀ x, post x) : nd (loadPair k) post := by
  unfold loadPair
  simp only [nd_mbind]
  exact nd_load fun _ => nd_load fun _ => nd_load fun _ => nd_load fun _ => nd_pure (h _)

theorem nd_64 {post : Unit → Prop} (h : post ()) : nd reOrderSet64 post := by
  unfold reOrderSet64
  refine nd_loop (fun j => ?_) h _ _
  unfold turn64
  simp only [nd_mbind]
  exact nd_pair fun _ => nd_pair fun _ => nd_store trivial

theorem nd_32 {post : Unit → Prop} (h : post ()) : nd reOrderSet32 post := by
  unfold reOrderSet32
  refine nd_loop (fun j => ?_) h _ _
  unfold turn32
  simp only [nd_mbind]
  exact nd_pair fun _ => nd_store trivial

theorem nd_swap {n : Nat} {post : Unit → Prop} (h : post ()) : nd (reOrderFile n) post := by
  unfold reOrderFile
  refine nd_loop (fun j => ?_) h _ _
  unfold turnSwap
  simp only [nd_mbind]
  exact nd_load fun _ => nd_store trivial

theorem nd_zero {post : Unit → Prop} (h : post ()) : nd zeroDest post := by
  unfold zeroDest
  exact nd_loop (fun j => nd_store trivial) h _ _

theorem nd_prepare {post : Nat → Prop} (ha : argc = 3) (hr : 4096 * 3072 * 3 / 2 ≤ rawSize % 2 ^ 32) (hr' : rawSize % 2 ^ 32 < 2 ^ 31)
    (h0 : 0 < ljSize % 2 ^ 32) (h1 : ljSize % 2 ^ 32 < 2 ^ 31) (h : post (ljSize % 2 ^ 32)) : nd (prepare c argc rawSize ljSize) post := by
  unfold prepare dmaOpen
  simp only [nd_mbind]
  refine nd_log <| nd_assert (by rw [ha]; rfl) <| nd_open <| nd_open <| nd_mmap <| nd_log <| nd_mmap <| nd_mmap <| nd_log <|
    nd_loadFile (by decide) h0 h1 <| nd_log <| nd_log <| nd_loadFile (by decide) (by omega) hr' <| nd_assert (decide_eq_true hr) <| nd_log <| nd_log ?_
  generalize ljSize % 2 ^ 32 = y at h ⊢
  have rest : nd (log "Remove Raw12 img form memory.") fun _ => nd (clearMemData .raw12) fun _ => nd (log "Re-order compressed LJ92 img.") fun _ =>
      nd (reOrderFile y) fun _ => nd (log "Zero out the MMaped destination region.") fun _ => nd zeroDest fun _ => nd (pure y) post :=
    nd_log <| nd_clear <| nd_log <| nd_swap <| nd_log <| nd_zero <| nd_pure h
  split
  · simp only [nd_mbind]; exact nd_64 rest
  · simp only [nd_mbind]; exact nd_32 rest

theorem nd_coreOpen {base bd : Nat} {post : Unit → Prop} (hb : 2 ≤ bd ∧ bd ≤ 16) (h : post ()) : nd (coreOpen base bd) post := by
  unfold coreOpen
  simp only [nd_mbind]
  exact nd_open <| nd_assert (decide_eq_true hb) <| nd_mmap h

theorem nd_setupCore {post : Unit → Prop} (hb : c.axiLite = true → 2 ≤ c.bitDepth ∧ c.bitDepth ≤ 16) (h : post ()) : nd (setupCore c) post := by
  unfold setupCore configure
  split
  · next hl =>
    simp only [nd_mbind]
    refine nd_log <| nd_log <| nd_coreOpen (hb hl) <| nd_prog _ small_width fun _ => nd_prog _ small_height fun _ =>
      nd_prog _ (fun _ => trivial) fun _ => nd_log <| nd_prog _ (fun _ => trivial) fun _ => nd_log <|
      nd_log <| nd_prog _ ⟨by decide, trivial⟩ fun _ => nd_prog _ (fun _ => trivial) fun _ => nd_log <| nd_prog _ (small_codes _ _ _ fun _ => trivial) fun _ => nd_print h
  · simp only [nd_mbind]
    exact nd_log <| nd_log h

theorem nd_printStatus {post : Unit → Prop} (h : post ()) : nd printStatus post := by
  unfold printStatus
  simp only [nd_mbind]
  exact nd_status fun _ => nd_print <| nd_status fun _ => nd_print h

theorem nd_setupDma {n : Nat} {post : Unit → Prop} (h : post ()) : nd (setupDma c n) post := by
  unfold setupDma resetDma haltDma setDmaSrcDist startDma setDmaTransferLen dmaSet
  simp only [nd_mbind]
  exact nd_log <| nd_store <| nd_store <| nd_printStatus <| nd_log <| nd_store <| nd_store <| nd_printStatus <| nd_log <| nd_store <| nd_store <|
    nd_log <| nd_store <| nd_store <| nd_log <| nd_store <| nd_store h

theorem nd_waitDma {post : Unit → Prop} (h : post ()) : nd waitDma post := by
  unfold waitDma
  simp only [nd_mbind]
  exact nd_log <| nd_sync <| nd_log <| nd_sync h

theorem nd_firstLoop {post : Bool → Prop} (h : ∀ b, post b) : ∀ (n i : Nat), nd (firstLoop n i) post
  | 0, _ => nd_ret (h true)
  | n + 1, i => by
    unfold firstLoop
    rw [nd_bind]
    refine nd_load fun v => ?_
    split
    · rw [nd_bind]; exact nd_log (nd_ret (h false))
    · exact nd_firstLoop h n (i + 1)

theorem nd_search {post : Nat → Prop} (h : ∀ b, post b) : ∀ (n i : Nat), nd (searchLoop n i) post
  | 0, _ => nd_ret (h _)
  | n + 1, i => by
    unfold searchLoop
    rw [nd_bind]
    refine nd_load fun v => ?_
    split
    · exact nd_ret (h _)
    · rw [nd_bind]
      refine nd_load fun v => ?_
      split
      · exact nd_ret (h _)
      · exact nd_search h n (i + 1)

theorem nd_lastLoop {off : Nat} {post : Bool → Prop} (h : ∀ b, post b) : ∀ (n i : Nat), nd (lastLoop off n i) post
  | 0, _ => nd_ret (h true)
  | n + 1, i => by
    unfold lastLoop
    rw [nd_bind]
    refine nd_load fun v => ?_
    split
    · rw [nd_bind]
      refine nd_load fun v => ?_
      split
      · rw [nd_bind]; exact nd_log (nd_ret (h false))
      · exact nd_lastLoop h n (i + 1)
    · exact nd_lastLoop h n (i + 1)

theorem nd_wordLoop {post : Bool → Prop} (h : ∀ b, post b) : ∀ (n i : Nat), nd (wordLoop n i) post
  | 0, _ => nd_ret (h true)
  | n + 1, i => by
    unfold wordLoop
    simp only [nd_mbind]
    refine nd_load fun v => nd_load fun v' => ?_
    split
    · simp only [nd_mbind]
      exact nd_log <| nd_log <| nd_dump <| nd_log <| nd_dump (nd_pure (h false))
    · exact nd_wordLoop h n (i + 1)

theorem nd_byteLoop {post : Bool → Prop} (h : ∀ b, post b) : ∀ (n i : Nat), nd (byteLoop n i) post
  | 0, _ => nd_ret (h true)
  | n + 1, i => by
    unfold byteLoop
    simp only [nd_mbind]
    refine nd_load fun v => nd_load fun v' => ?_
    split
    · simp only [nd_mbind]
      exact nd_log <| nd_log <| nd_dump <| nd_log <| nd_dump (nd_pure (h false))
    · exact nd_byteLoop h n (i + 1)

theorem nd_last {n : Nat} {post : Unit → Prop} (h : post ()) : nd (checkLastMarker n) post := by
  unfold checkLastMarker
  simp only [nd_mbind]
  refine nd_search (fun off => nd_lastLoop (fun b => ?_) _ _) _ _
  split
  · simp only [nd_mbind]
    refine nd_load fun v => ?_
    split
    · simp only [nd_mbind]
      refine nd_log <| nd_load fun v => ?_
      split
      · exact nd_log h
      · exact nd_pure h
    · simp only [nd_mbind]
      refine nd_load fun v => ?_
      split
      · exact nd_log h
      · exact nd_pure h
  · exact nd_pure h

theorem nd_validate {n : Nat} {post : Unit → Prop} (h : post ()) : nd (validateMain n) post := by
  unfold validateMain
  simp only [nd_mbind]
  refine nd_wordLoop (fun b => ?_) _ _
  split
  · simp only [nd_mbind]
    refine nd_byteLoop (fun b => ?_) _ _
    split
    · exact nd_log h
    · exact nd_pure h
  · exact nd_pure h

theorem nd_debug : ∀ (n i : Nat) {post : List Nat → Prop}, (∀ l, post l) → nd (readDebug n i) post
  | 0, _, _, h => nd_ret (h [])
  | n + 1, i, _, h => by
    unfold readDebug
    rw [nd_bind]
    refine nd_load fun v => ?_
    rw [nd_bind]
    exact nd_debug n (i + 1) fun l => nd_ret (h _)

theorem nd_examine {n : Nat} {post : Unit → Prop} (hb : c.axiLite = true → 2 ≤ c.bitDepth ∧ c.bitDepth ≤ 16) (h : post ()) : nd (examine c n) post := by
  unfold examine checkFirstMarker
  simp only [nd_mbind]
  refine nd_log <| nd_printStatus <| nd_log <| nd_dump <| nd_log <| nd_dump <| nd_log <| nd_dump <| nd_log <| nd_dump <| nd_log <|
    nd_firstLoop (fun b => ?_) _ _
  have rest : nd (log "Check for last marker.") fun _ => nd (checkLastMarker n) fun _ => nd (log "Validate data.") fun _ => nd (validateMain n) fun _ =>
      nd (if (c.axiLite && c.debugReg) = true then do
          coreOpen c.axiLiteBase c.bitDepth
          printVector (← getDebug) "Debugging data."
        else pure ()) post := by
    refine nd_log <| nd_last <| nd_log <| nd_validate ?_
    split
    · next hc =>
      rw [Bool.and_eq_true] at hc
      simp only [nd_mbind]
      refine nd_coreOpen (hb hc.1) ?_
      unfold getDebug
      rw [nd_bind]
      exact nd_debug _ _ fun l => nd_ret (nd_print h)
    · exact nd_pure h
  split
  · exact nd_log rest
  · exact nd_pure rest

theorem nd_main (ha : argc = 3) (hr : 4096 * 3072 * 3 / 2 ≤ rawSize % 2 ^ 32) (hr' : rawSize % 2 ^ 32 < 2 ^ 31)
    (h0 : 0 < ljSize % 2 ^ 32) (h1 : ljSize % 2 ^ 32 < 2 ^ 31) (hb : c.axiLite = true → 2 ≤ c.bitDepth ∧ c.bitDepth ≤ 16) :
    nd (main c argc rawSize ljSize) fun _ => True := by
  unfold main
  simp only [nd_mbind]
  exact nd_prepare ha hr hr' h0 h1 <| nd_setupCore hb <| nd_setupDma <| nd_waitDma <| nd_examine hb trivial

end

end Model.HostMain
