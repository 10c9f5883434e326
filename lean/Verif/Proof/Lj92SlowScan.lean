/- Helper lemmas about the two builds of the lj92 decoder: they scan alike. -/
import Verif.Proof.Lj92SlowBits
import Verif.Proof.Lj92Preds

set_option autoImplicit false

namespace Model.Lj92.Slow
open Spec Model.Lj92

/-- Both fail, or both succeed with related results. -/
def Both {σ τ : Type} (R : σ → τ → Prop) (a : Option σ) (b : Option τ) : Prop := (a = none ∧ b = none) ∨ ∃ x y, a = some x ∧ b = some y ∧ R x y

theorem both_bind {σ τ σ' τ' : Type} {R : σ → τ → Prop} {R' : σ' → τ' → Prop} {a : Option σ} {b : Option τ} {f : σ → Option σ'} {g : τ → Option τ'}
    (h : Both R a b) (hf : ∀ x y, R x y → Both R' (f x) (g y)) : Both R' (a.bind f) (b.bind g) := by
  rcases h with ⟨rfl, rfl⟩ | ⟨x, y, rfl, rfl, h⟩
  · exact .inl ⟨rfl, rfl⟩
  · exact hf x y h

theorem both_map {σ τ σ' τ' : Type} {R : σ → τ → Prop} {R' : σ' → τ' → Prop} {a : Option σ} {b : Option τ} {f : σ → σ'} {g : τ → τ'}
    (h : Both R a b) (hf : ∀ x y, R x y → R' (f x) (g y)) : Both R' (a.map f) (b.map g) := by
  rcases h with ⟨rfl, rfl⟩ | ⟨x, y, rfl, rfl, h⟩
  · exact .inl ⟨rfl, rfl⟩
  · exact .inr ⟨_, _, rfl, rfl, hf x y h⟩

theorem both_forN {σ τ : Type} {f : Nat → σ → Option σ} {g : Nat → τ → Option τ} {R : Nat → σ → τ → Prop} : ∀ (n : Nat)
    (_ : ∀ k s t, k < n → R k s t → Both (R (k + 1)) (f k s) (g k t)) (s : σ) (t : τ) (_ : R 0 s t), Both (R n) (forN f n s) (forN g n t)
  | 0, _, s, t, h => .inr ⟨s, t, rfl, rfl, h⟩
  | n + 1, hf, s, t, h => by
    have ih := both_forN n (fun k s t hk => hf k s t (by omega)) s t h
    exact both_bind ih (fun x y hxy => hf n x y (by omega) hxy)

/-- The code of a list of differences. -/
def codeOf (T : Table) (ds : List Int) : List Bool := ds.flatMap (wideBits T)

/-- The tables of the two builds, for the differences in use: a look-up table with the code words of `T`; for each class a code of the canonical codes
for the counts `c` with that value. -/
structure Tabs (T : Table) (c vals : Nat → Nat) (n : Nat) (P : Nat → Prop) : Prop where
  num : (huffSizes c 16).length = n
  word : ∀ t, P t → ∃ k l, (huffSizes c 16)[k]? = some l ∧ vals k = t ∧ T t = toBits l (codeAt c k) ∧ codeAt c k < 2 ^ l

/-- What does not change during a scan of the two builds, `s0` and `t0` their states before it. -/
structure Setup (T : Table) (c vals : Nat → Nat) (n : Nat) (P : Nat → Prop) (tab : Tab) (s0 t0 : Ljp) : Prop where
  tabs : Tabs T c vals n P
  ok : TabOk tab c vals n
  bytes : ∀ k, s0.data k < 256
  bytes' : ∀ k, t0.data k < 256
  hb : s0.huffbits ≤ 16
  lut : ∀ t, P t → LutOk s0.hufflut s0.huffbits (T t) t
  small : ∀ t, P t → t ≤ 15

/-- The states of the two builds with the differences `ds` still to be read: equal but for the bit reader and the tables. `E`, `E'`: the ends of the
code in the two memories. -/
structure Rel (T : Table) (s0 t0 : Ljp) (E E' : Nat) (P : Nat → Prop) (ds : List Int) (s t : Ljp) : Prop where
  classes : ∀ x ∈ ds, P (cls x)
  fast : RepE s0.data E (s.b, s.cnt, s.ix) (codeOf T ds)
  slow : SRep t0.data E' (t.b, t.cnt, t.ix) (codeOf T ds)
  cnt : s.cnt ≤ 31
  b : t.b < 256
  data : s.data = s0.data
  data' : t.data = t0.data
  lut : s.hufflut = s0.hufflut
  hb : s.huffbits = s0.huffbits
  dl : s.datalen = s0.datalen
  dl' : t.datalen = t0.datalen
  x : t.x = s.x
  y : t.y = s.y
  bits : t.bits = s.bits
  components : t.components = s.components
  skiplen : t.skiplen = s.skiplen
  image : t.image = s.image
  rowcache : t.rowcache = s.rowcache

theorem Rel.stored {T : Table} {s0 t0 : Ljp} {E E' : Nat} {P : Nat → Prop} {ds : List Int} {s t : Ljp} (h : Rel T s0 t0 E E' P ds s t)
    (im rc : Nat → Nat) : Rel T s0 t0 E E' P ds { s with rowcache := rc, image := im } { t with rowcache := rc, image := im } :=
  ⟨h.classes, h.fast, h.slow, h.cnt, h.b, h.data, h.data', h.lut, h.hb, h.dl, h.dl', h.x, h.y, h.bits, h.components, h.skiplen, rfl, rfl⟩

/-- Both builds read the next difference. -/
theorem nextdiff_both (ub : Int) {T : Table} {c vals : Nat → Nat} {n : Nat} {P : Nat → Prop} {tab : Tab} {s0 t0 : Ljp} {E E' : Nat}
    (hs : Setup T c vals n P tab s0 t0) {x : Int} {ds : List Int} {s t : Ljp} (h : Rel T s0 t0 E E' P (x :: ds) s t) :
    ∃ s' t', Lj92.nextdiff ub s = some (s', x) ∧ nextdiff ub (some tab) t = some (t', x) ∧ Rel T s0 t0 E E' P ds s' t' ∧
      s'.x = s.x := by
  have hP := h.classes x (List.mem_cons_self ..)
  have hf := h.fast
  have hsl := h.slow
  have hcode : codeOf T (x :: ds) = T (cls x) ++ (toBits (cls x) (extra x) ++ codeOf T ds) := by
    simp [codeOf, wideBits]
  rw [hcode] at hf hsl
  obtain ⟨s', a1, a2, a3, a4⟩ := nextdiff_repE ub (s := s) (by rw [h.data]; exact hs.bytes) (by rw [h.hb]; exact hs.hb)
    (by rw [h.hb, h.lut]; exact hs.lut _ hP) (hs.small _ hP) (extra_lt x) h.cnt (by rw [h.data]; exact hf)
  obtain ⟨k, l, k1, k2, k3, k4⟩ := hs.tabs.word _ hP
  rw [k3] at hsl
  obtain ⟨t', b1, b2, b3, b4⟩ := nextdiff_slow ub (s := t) (by rw [h.data']; exact hs.bytes') hs.ok hs.tabs.num k1 k4
    (by rw [k2]; exact extra_lt x) h.b (by rw [h.data', k2]; exact hsl)
  rw [extend_extra] at a1
  rw [k2, extend_extra] at b1
  rw [h.data] at a2
  rw [h.data'] at b2
  refine ⟨s', t', a1, b1, ⟨fun y hy => h.classes y (List.mem_cons_of_mem _ hy), a2, b2, a3, b3, ?_, ?_, ?_, ?_, ?_, ?_, ?_, ?_, ?_, ?_, ?_, ?_, ?_⟩, by rw [a4]⟩
  all_goals first | (rw [a4, b4]; first | exact h.x | exact h.y | exact h.bits | exact h.components | exact h.skiplen | exact h.image | exact h.rowcache) | skip
  all_goals first | (rw [a4]; first | exact h.data | exact h.lut | exact h.hb | exact h.dl | rfl) | skip
  all_goals (rw [b4]; first | exact h.data' | exact h.dl')

theorem px_both {T : Table} {s0 t0 : Ljp} {E E' : Nat} {P : Nat → Prop} {ds : List Int} {s t : Ljp} (h : Rel T s0 t0 E E' P ds s t)
    (pred : Nat) (left : Int) (row col c : Nat) : px t pred left row col c = px s pred left row col c := by
  unfold px thisrow lastrow
  rw [h.x, h.bits, h.components, h.rowcache]

theorem body_both (ub : Int) {T : Table} {c vals : Nat → Nat} {n : Nat} {P : Nat → Prop} {tab : Tab} {s0 t0 : Ljp} {E E' : Nat}
    (hs : Setup T c vals n P tab s0 t0) {x : Int} {ds : List Int} {v w : Ljp × Int} (h : Rel T s0 t0 E E' P (x :: ds) v.1 w.1) (hl : v.2 = w.2)
    (lin : Option Lin) (pred row col q : Nat) :
    Both (fun v w => Rel T s0 t0 E E' P ds v.1 w.1 ∧ v.2 = w.2) (Lj92.body ub lin pred row col q v) (body ub (some tab) lin pred row col q w) := by
  obtain ⟨s, left⟩ := v
  obtain ⟨t, left'⟩ := w
  dsimp only at h hl
  subst hl
  obtain ⟨s', t', a1, a2, a3, _⟩ := nextdiff_both ub hs h
  unfold Lj92.body body
  dsimp only
  rw [a1, a2, px_both h]
  dsimp only
  generalize ((px s pred left row col q + x).tmod 65536) % 65536 = y
  by_cases hb : beyond lin y.toNat
  · left; rw [if_pos hb, if_pos hb]; exact ⟨rfl, rfl⟩
  · right
    rw [if_neg hb, if_neg hb]
    refine ⟨_, _, rfl, rfl, ?_, rfl⟩
    have e1 : thisrow t' row = thisrow s' row := by unfold thisrow; rw [a3.x]
    have eA : put t'.rowcache (thisrow t' row + (col * t'.components + q)) y.toNat =
        put s'.rowcache (thisrow s' row + (col * s'.components + q)) y.toNat := by rw [e1, a3.components, a3.rowcache]
    have eB : put t'.image (row * (t'.x * t'.components + t'.skiplen) + (col * t'.components + q)) (linear lin y.toNat) =
        put s'.image (row * (s'.x * s'.components + s'.skiplen) + (col * s'.components + q)) (linear lin y.toNat) := by
      rw [a3.x, a3.components, a3.skiplen, a3.image]
    dsimp only
    rw [eA, eB]
    exact a3.stored _ _

theorem drop_cons {ds : List Int} {n : Nat} (h : n < ds.length) : ∃ x, ds.drop n = x :: ds.drop (n + 1) :=
  ⟨ds[n], by rw [List.drop_eq_getElem_cons h]⟩

/-- The loops of the two builds. -/
theorem loops_both (ub : Int) {T : Table} {c vals : Nat → Nat} {n : Nat} {P : Nat → Prop} {tab : Tab} {s0 t0 : Ljp} {E E' : Nat}
    (hs : Setup T c vals n P tab s0 t0) {ds : List Int} {v w : Ljp × Int} (h : Rel T s0 t0 E E' P ds v.1 w.1) (hl : v.2 = w.2)
    (lin : Option Lin) (pred C X Y : Nat) (hlen : C * X * Y ≤ ds.length) :
    Both (fun v w => Rel T s0 t0 E E' P (ds.drop (C * X * Y)) v.1 w.1 ∧ v.2 = w.2)
      (forN (fun row => forN (fun col => forN (fun q => Lj92.body ub lin pred row col q) C) X) Y v)
      (forN (fun row => forN (fun col => forN (fun q => body ub (some tab) lin pred row col q) C) X) Y w) := by
  refine both_forN (R := fun row v w => Rel T s0 t0 E E' P (ds.drop (C * X * row)) v.1 w.1 ∧ v.2 = w.2) Y ?_ v w ⟨by simpa using h, hl⟩
  intro row v w hrow hv
  have hr1 : C * X * row + C * X ≤ C * X * Y := by
    have := Nat.mul_le_mul_left (C * X) (show row + 1 ≤ Y by omega)
    rw [Nat.mul_add, Nat.mul_one] at this; exact this
  have h1 := both_forN (f := fun col => forN (fun q => Lj92.body ub lin pred row col q) C)
    (g := fun col => forN (fun q => body ub (some tab) lin pred row col q) C)
    (R := fun col v w => Rel T s0 t0 E E' P (ds.drop (C * X * row + C * col)) v.1 w.1 ∧ v.2 = w.2) X ?_ v w (by simpa using hv)
  · rw [show C * X * (row + 1) = C * X * row + C * X by rw [Nat.mul_add, Nat.mul_one]]
    exact h1
  · intro col v w hcol hv
    have hc1 : C * col + C ≤ C * X := by
      have := Nat.mul_le_mul_left C (show col + 1 ≤ X by omega)
      rw [Nat.mul_add, Nat.mul_one] at this; exact this
    have h2 := both_forN (f := fun q => Lj92.body ub lin pred row col q) (g := fun q => body ub (some tab) lin pred row col q)
      (R := fun q v w => Rel T s0 t0 E E' P (ds.drop (C * X * row + C * col + q)) v.1 w.1 ∧ v.2 = w.2) C ?_ v w (by simpa using hv)
    · rw [show C * X * row + C * (col + 1) = C * X * row + C * col + C by rw [Nat.mul_add, Nat.mul_one, Nat.add_assoc]]
      exact h2
    · intro q v w hq hv
      obtain ⟨x, hx⟩ := drop_cons (ds := ds) (n := C * X * row + C * col + q) (by omega)
      rw [hx] at hv
      exact body_both ub hs hv.1 hv.2 lin pred row col q

end Model.Lj92.Slow
