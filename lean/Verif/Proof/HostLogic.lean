/- Proof rules for the programs of `Model/HostMain.lean`. -/
import Verif.Model.HostMain

set_option autoImplicit false

namespace Model.HostMain

/-- Memory after a sequence of events. -/
def memAfter (files : Region → Nat → Nat) (m : Mem) (t : List Ev) : Mem := t.foldl (fun m e => effect files e m) m

/-- A monitor: a state computed from the events, what may be assumed of the loads, what must hold at each event. -/
structure Mon (S : Type) where
  g : S → Ev → S
  A : Mem → S → Ev → Prop
  Q : Mem → S → Ev → Prop

/-- `R` holds at every event. -/
def Keeps {S : Type} (files : Region → Nat → Nat) (g : S → Ev → S) (R : Mem → S → Ev → Prop) : Mem → S → List Ev → Prop
  | _, _, [] => True
  | m, s, e :: t => R m s e ∧ Keeps files g R (effect files e m) (g s e) t

theorem Keeps.at {S : Type} {files : Region → Nat → Nat} {g : S → Ev → S} {R : Mem → S → Ev → Prop} {e : Ev} {t2 : List Ev} :
    ∀ {t1 : List Ev} {m : Mem} {s : S}, Keeps files g R m s (t1 ++ e :: t2) → R (memAfter files m t1) (t1.foldl g s) e
  | [], _, _, h => h.1
  | _ :: t1, _, _, h => Keeps.at (t1 := t1) h.2

theorem keeps_of {S : Type} {files : Region → Nat → Nat} {g : S → Ev → S} {R : Mem → S → Ev → Prop} :
    ∀ {t : List Ev} {m : Mem} {s : S}, (∀ e ∈ t, ∀ m s, R m s e) → Keeps files g R m s t
  | [], _, _, _ => trivial
  | _ :: _, _, _, h => ⟨h _ (List.mem_cons_self ..) _ _, keeps_of fun e he => h e (List.mem_cons_of_mem _ he)⟩

/-- Weakest precondition of a program under a monitor. -/
def wp {S α : Type} (files : Region → Nat → Nat) (M : Mon S) : P α → (α → Mem → S → Prop) → Mem → S → Prop
  | .ret a, post, m, s => post a m s
  | .load r off n k, post, m, s => ∀ v, LoadOk m r off n v → M.A m s (.load r off n v) →
      M.Q m s (.load r off n v) ∧ wp files M (k v) post m (M.g s (.load r off n v))
  | .act e k, post, m, s => M.A m s e → M.Q m s e ∧ wp files M k post (effect files e m) (M.g s e)
  | .ask k, post, m, s => ∀ b, wp files M (k b) post m s
  | .wait r off n d k, post, m, s => ∀ v, LoadOk m r off n v → M.A m s (.load r off n v) →
      M.Q m s (.load r off n v) ∧ (d v = true → wp files M k post m (M.g s (.load r off n v))) ∧
        (d v = false → M.g s (.load r off n v) = s)
  | .die, _, m, s => M.A m s .exit → M.Q m s .exit

section
variable {S α β : Type} {files : Region → Nat → Nat} {M : Mon S}

theorem wp_sound {p : P α} {m m' : Mem} {t : List Ev} {o : Option α} (h : Run files p m t o m') :
    ∀ {s : S} {post : α → Mem → S → Prop}, wp files M p post m s → Keeps files M.g M.A m s t →
      Keeps files M.g M.Q m s t ∧ m' = memAfter files m t ∧ ∀ a, o = some a → post a m' (t.foldl M.g s) := by
  induction h with
  | stop => intro s post _ _; exact ⟨trivial, rfl, fun _ h => by cases h⟩
  | ret => intro s post h _; exact ⟨trivial, rfl, fun _ e => by cases e; exact h⟩
  | die => intro s post h k; exact ⟨⟨h k.1, trivial⟩, rfl, fun _ e => by cases e⟩
  | load ok _ ih =>
    intro s post h k
    obtain ⟨hq, hw⟩ := h _ ok k.1
    obtain ⟨h1, h2, h3⟩ := ih hw k.2
    exact ⟨⟨hq, h1⟩, h2, h3⟩
  | act _ ih =>
    intro s post h k
    obtain ⟨hq, hw⟩ := h k.1
    obtain ⟨h1, h2, h3⟩ := ih hw k.2
    exact ⟨⟨hq, h1⟩, h2, h3⟩
  | ask _ ih => intro s post h k; exact ih (h _) k
  | @more r off n v d k m m' t o ok hd _ ih =>
    intro s post h k
    obtain ⟨hq, _, hs⟩ := h _ ok k.1
    have e := hs hd
    obtain ⟨k1, k2⟩ := k
    rw [e] at k2
    obtain ⟨h1, h2, h3⟩ := ih h k2
    refine ⟨⟨hq, ?_⟩, h2, ?_⟩
    · rw [e]; exact h1
    · intro a ha
      show post a _ (List.foldl M.g (M.g s _) _)
      rw [e]; exact h3 a ha
  | done ok hd _ ih =>
    intro s post h k
    obtain ⟨hq, hw, _⟩ := h _ ok k.1
    obtain ⟨h1, h2, h3⟩ := ih (hw hd) k.2
    exact ⟨⟨hq, h1⟩, h2, h3⟩

theorem wp_bind (p : P α) (f : α → P β) (post : β → Mem → S → Prop) :
    ∀ (m : Mem) (s : S), wp files M (p.bind f) post m s ↔ wp files M p (fun a m s => wp files M (f a) post m s) m s := by
  induction p with
  | ret a => intro m s; exact Iff.rfl
  | load r off n k ih => intro m s; simp only [P.bind, wp, ih]
  | act e k ih => intro m s; simp only [P.bind, wp, ih]
  | ask k ih => intro m s; simp only [P.bind, wp, ih]
  | wait r off n d k ih => intro m s; simp only [P.bind, wp, ih]
  | die => intro m s; exact Iff.rfl

theorem wp_mbind (p : P α) (f : α → P β) (post : β → Mem → S → Prop) (m : Mem) (s : S) :
    wp files M (p >>= f) post m s ↔ wp files M p (fun a m s => wp files M (f a) post m s) m s := wp_bind p f post m s

theorem wp_pure (a : α) (post : α → Mem → S → Prop) (m : Mem) (s : S) : wp files M (pure a) post m s ↔ post a m s := Iff.rfl

theorem wp_mono {p : P α} {post post' : α → Mem → S → Prop} (hp : ∀ a m s, post a m s → post' a m s) :
    ∀ {m : Mem} {s : S}, wp files M p post m s → wp files M p post' m s := by
  induction p with
  | ret a => intro m s h; exact hp _ _ _ h
  | load r off n k ih => intro m s h v h1 h2; exact ⟨(h v h1 h2).1, ih _ (h v h1 h2).2⟩
  | act e k ih => intro m s h h1; exact ⟨(h h1).1, ih (h h1).2⟩
  | ask k ih => intro m s h b; exact ih _ (h b)
  | wait r off n d k ih => intro m s h v h1 h2; exact ⟨(h v h1 h2).1, fun hd => ih ((h v h1 h2).2.1 hd), (h v h1 h2).2.2⟩
  | die => intro m s h; exact h

theorem wp_seq {p : P α} {f : α → P β} {mid : α → Mem → S → Prop} {post : β → Mem → S → Prop} {m : Mem} {s : S}
    (h1 : wp files M p mid m s) (h2 : ∀ a m s, mid a m s → wp files M (f a) post m s) : wp files M (p >>= f) post m s :=
  (wp_mbind ..).2 (wp_mono h2 h1)

theorem wp_loop {f : Nat → P Unit} (I : Nat → Mem → S → Prop) :
    ∀ (n i : Nat) {post : Unit → Mem → S → Prop} {m : Mem} {s : S},
      (∀ j m s, i ≤ j → j < i + n → I j m s → wp files M (f j) (fun _ m s => I (j + 1) m s) m s) →
      I i m s → (∀ m s, I (i + n) m s → post () m s) → wp files M (loop f n i) post m s
  | 0, _, _, _, _, _, h0, h1 => h1 _ _ h0
  | n + 1, i, _, _, _, hf, h0, h1 => by
    unfold loop
    rw [wp_bind]
    refine wp_mono ?_ (hf i _ _ (Nat.le_refl _) (by omega) h0)
    intro _ m s hi
    exact wp_loop I n (i + 1) (fun j m s h1 h2 h3 => hf j m s (by omega) (by omega) h3) hi
      (fun m s h => h1 m s (by rw [show i + (n + 1) = i + 1 + n by omega]; exact h))

end

/-! ### What can happen -/

/-- Some run finishes with `post`. -/
def may {α : Type} (files : Region → Nat → Nat) : P α → (α → Mem → Prop) → Mem → Prop
  | .ret a, post, m => post a m
  | .load r off n k, post, m => ∃ v, LoadOk m r off n v ∧ may files (k v) post m
  | .act e k, post, m => may files k post (effect files e m)
  | .ask k, post, m => ∃ b, may files (k b) post m
  | .wait r off n d k, post, m => ∃ v, LoadOk m r off n v ∧ d v = true ∧ may files k post m
  | .die, _, _ => False

section
variable {α β : Type} {files : Region → Nat → Nat}

theorem may_run {p : P α} {post : α → Mem → Prop} : ∀ {m : Mem}, may files p post m → ∃ t a m', Run files p m t (some a) m' ∧ post a m' := by
  induction p with
  | ret a => intro m h; exact ⟨[], a, m, .ret, h⟩
  | load r off n k ih =>
    intro m h
    obtain ⟨v, hv, h⟩ := h
    obtain ⟨t, a, m', hr, hp⟩ := ih v h
    exact ⟨_, a, m', .load hv hr, hp⟩
  | act e k ih =>
    intro m h
    obtain ⟨t, a, m', hr, hp⟩ := ih h
    exact ⟨_, a, m', .act hr, hp⟩
  | ask k ih =>
    intro m h
    obtain ⟨b, h⟩ := h
    obtain ⟨t, a, m', hr, hp⟩ := ih b h
    exact ⟨t, a, m', .ask hr, hp⟩
  | wait r off n d k ih =>
    intro m h
    obtain ⟨v, hv, hd, h⟩ := h
    obtain ⟨t, a, m', hr, hp⟩ := ih h
    exact ⟨_, a, m', .done hv hd hr, hp⟩
  | die => intro m h; exact h.elim

theorem may_bind (p : P α) (f : α → P β) (post : β → Mem → Prop) :
    ∀ (m : Mem), may files (p.bind f) post m ↔ may files p (fun a m => may files (f a) post m) m := by
  induction p with
  | ret a => intro m; exact Iff.rfl
  | load r off n k ih => intro m; simp only [P.bind, may, ih]
  | act e k ih => intro m; simp only [P.bind, may, ih]
  | ask k ih => intro m; simp only [P.bind, may, ih]
  | wait r off n d k ih => intro m; simp only [P.bind, may, ih]
  | die => intro m; exact Iff.rfl

theorem may_mbind (p : P α) (f : α → P β) (post : β → Mem → Prop) (m : Mem) :
    may files (p >>= f) post m ↔ may files p (fun a m => may files (f a) post m) m := may_bind p f post m

theorem may_mono {p : P α} {post post' : α → Mem → Prop} (hp : ∀ a m, post a m → post' a m) :
    ∀ {m : Mem}, may files p post m → may files p post' m := by
  induction p with
  | ret a => intro m h; exact hp _ _ h
  | load r off n k ih => intro m ⟨v, h1, h2⟩; exact ⟨v, h1, ih _ h2⟩
  | act e k ih => intro m h; exact ih h
  | ask k ih => intro m ⟨b, h⟩; exact ⟨b, ih _ h⟩
  | wait r off n d k ih => intro m ⟨v, h1, h2, h3⟩; exact ⟨v, h1, h2, ih h3⟩
  | die => intro m h; exact h

theorem may_loop {f : Nat → P Unit} (hf : ∀ j m, may files (f j) (fun _ _ => True) m) :
    ∀ (n i : Nat) (m : Mem), may files (loop f n i) (fun _ _ => True) m
  | 0, _, _ => trivial
  | n + 1, i, m => by
    unfold loop
    rw [may_bind]
    exact may_mono (fun _ m _ => may_loop hf n (i + 1) m) (hf i m)

/-- Runs of a sequence. -/
theorem run_bind {p : P α} {f : α → P β} {a : α} {o : Option β} {m m' m'' : Mem} {t t' : List Ev}
    (h : Run files p m t (some a) m') (h' : Run files (f a) m' t' o m'') : Run files (p.bind f) m (t ++ t') o m'' := by
  generalize ho : some a = o1 at h
  induction h with
  | stop => cases ho
  | ret => cases ho; exact h'
  | die => cases ho
  | load ok _ ih => exact .load ok (ih h' ho)
  | act _ ih => exact .act (ih h' ho)
  | ask _ ih => exact .ask (ih h' ho)
  | more ok hd _ ih => exact .more ok hd (ih h' ho)
  | done ok hd _ ih => exact .done ok hd (ih h' ho)

end

end Model.HostMain
