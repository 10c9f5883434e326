/- Helper lemmas about the recorded memory accesses of the lj92 encoder: the two passes over the image and the output. -/
import Verif.Proof.Lj92EncSafe

set_option autoImplicit false

namespace Model.Lj92.Enc
open Spec Model.Lj92 TrE

variable {α β σ : Type}

/-- The array and the index of an access. -/
def Acc.arr : Acc → Arr
  | .rd a _ | .wr a _ => a
def Acc.idx : Acc → Int
  | .rd _ k | .wr _ k => k

/-- The accesses to one array. -/
def proj (a : Arr) (l : List Acc) : List Acc := l.filter fun x => x.arr = a

theorem proj_append (a : Arr) (l m : List Acc) : proj a (l ++ m) = proj a l ++ proj a m := by simp [proj]

theorem proj_nil_of {a : Arr} {l : List Acc} (h : ∀ x ∈ l, x.arr ≠ a) : proj a l = [] := by
  unfold proj
  rw [List.filter_eq_nil_iff]
  intro x hx
  simpa using h x hx

/-- An access to the row cache, within it, or to an array of eighteen entries, within it. -/
def Inner (a : Args) : Acc → Prop
  | .rd b k | .wr b k => b ≠ .image ∧ b ≠ .delin ∧ b ≠ .out ∧ 0 ≤ k ∧ k < (if b = .rows then 2 * (a.width : Int) else 18)

theorem Inner.of_small {a : Args} {x : Acc} (h : Small x) : Inner a x := by
  cases x <;> (obtain ⟨h1, h2, h3, h4, h5, h6⟩ := h; exact ⟨h1, h2, h4, h5, by rw [if_neg h3]; exact h6⟩)

theorem Inner.arr {a : Args} {x : Acc} (h : Inner a x) : x.arr ≠ .image ∧ x.arr ≠ .delin ∧ x.arr ≠ .out := by
  cases x <;> exact ⟨h.1, h.2.1, h.2.2.1⟩

/-- Accesses to the image, in a list of inner accesses: none. -/
theorem proj_inner {a : Args} {l : List Acc} (h : ∀ x ∈ l, Inner a x) : proj .image l = [] ∧ proj .delin l = [] ∧ proj .out l = [] :=
  ⟨proj_nil_of fun x hx => (h x hx).arr.1, proj_nil_of fun x hx => (h x hx).arr.2.1, proj_nil_of fun x hx => (h x hx).arr.2.2⟩

theorem row_inner {a : Args} {c : Cur} {k : Int} (h0 : 0 ≤ k) (h : k < a.width) :
    Inner a (.rd .rows (row1At a c k)) ∧ Inner a (.wr .rows (row1At a c k)) ∧ Inner a (.rd .rows (row0At a c k)) := by
  have e1 : 0 ≤ row1At a c k ∧ row1At a c k < 2 * (a.width : Int) := by unfold row1At; split <;> omega
  have e0 : 0 ≤ row0At a c k ∧ row0At a c k < 2 * (a.width : Int) := by unfold row0At; split <;> omega
  refine ⟨?_, ?_, ?_⟩
  · exact ⟨by decide, by decide, by decide, e1.1, by rw [if_pos rfl]; exact e1.2⟩
  · exact ⟨by decide, by decide, by decide, e1.1, by rw [if_pos rfl]; exact e1.2⟩
  · exact ⟨by decide, by decide, by decide, e0.1, by rw [if_pos rfl]; exact e0.2⟩

theorem predictT_inner {a : Args} {c : Cur} (h : c.col < a.width) : All (Inner a) (predictT a c) := by
  unfold predictT
  by_cases h1 : c.row = 0 ∧ c.col = 0
  · rw [if_pos h1]; exact All.ret _
  · rw [if_neg h1]
    by_cases h2 : c.row = 0
    · rw [if_pos h2]
      refine All.bind ?_ fun _ _ => All.ret _
      intro x hx
      simp only [touch, List.mem_cons, List.not_mem_nil, or_false] at hx
      subst hx
      exact (row_inner (c := c) (by omega) (by omega)).1
    · rw [if_neg h2]
      by_cases h3 : c.col = 0
      · rw [if_pos h3]
        refine All.bind ?_ fun _ _ => All.ret _
        intro x hx
        simp only [touch, List.mem_cons, List.not_mem_nil, or_false] at hx
        subst hx
        exact (row_inner (c := c) (by omega) (by omega)).2.2
      · rw [if_neg h3]
        refine All.bind ?_ fun _ _ => All.ret _
        intro x hx
        simp only [touch, List.mem_cons, List.not_mem_nil, or_false] at hx
        rcases hx with rfl | rfl | rfl
        · exact (row_inner (c := c) (by omega) (by omega)).2.2
        · exact (row_inner (c := c) (by omega) (by omega)).1
        · exact (row_inner (c := c) (by omega) (by omega)).2.2

theorem diffOfT_inner {a : Args} {c : Cur} (h : c.col < a.width) (p : Nat) : All (Inner a) (diffOfT a c p) := by
  unfold diffOfT
  refine All.bind ?_ fun _ _ => All.bind (predictT_inner h) fun _ _ => All.bind ?_ fun _ _ => All.ret _
  · intro x hx
    simp only [touch, List.mem_cons, List.not_mem_nil, or_false] at hx
    subst hx
    exact (row_inner (c := c) (by omega) (by omega)).2.1
  · intro x hx
    simp only [touch, List.mem_cons, List.not_mem_nil, or_false] at hx
    subst hx
    exact (row_inner (c := { c with rows1 := put c.rows1 c.col p }) (by omega) (by omega)).1

/-- The samples of the image in raster order, and their values after the delinearization. -/
def samples (a : Args) : List Nat := (List.range (a.width * a.height)).map fun n => a.image (strided a.readLength a.skipLength n)
def values (a : Args) : List Nat := (List.range (a.width * a.height)).map fun n => a.value (strided a.readLength a.skipLength n)

theorem samples_getD {a : Args} {n : Nat} (h : n < a.width * a.height) : (samples a).getD n 0 = a.image (n + n / a.readLength * a.skipLength) := by
  simp [samples, List.getD_eq_getElem?_getD, h, strided]

theorem values_getD {a : Args} {n : Nat} (h : n < a.width * a.height) : (values a).getD n 0 = a.value (n + n / a.readLength * a.skipLength) := by
  simp [values, List.getD_eq_getElem?_getD, h, strided]

/-- What a step of a pass does: reads sample `n`, and inner accesses. -/
theorem scanStepT_accs {a : Args} {acc : List Nat} (hw : 1 ≤ a.width) (hrl : 1 ≤ a.readLength) {n : Nat} {v : Cur × (Nat → Nat)} (h : CurInv a acc n v.1)
    (hp : a.image v.1.pixel = acc.getD n 0) :
    ∃ l, (scanStepT a v).accs = .rd .image (strided a.readLength a.skipLength n) :: l ∧ ∀ x ∈ l, Inner a x := by
  have hcol : v.1.col < a.width := by rw [h.col]; exact Nat.mod_lt _ hw
  obtain ⟨s1, _⟩ := cur_step hw hrl h hp
  have hs : ssssOf (diffOf a v.1 (a.image v.1.pixel)).2 ≤ 16 := by
    rw [s1, ssssOf_cls (Nat.lt_of_lt_of_le (diff6_lt ..) (by decide))]
    exact cls_diff6_le ..
  have hacc : (scanStepT a v).accs = .rd .image v.1.pixel :: ((diffOfT a v.1 (a.image v.1.pixel)).accs ++
      [.rd .hist (ssssOf (diffOf a v.1 (a.image v.1.pixel)).2), .wr .hist (ssssOf (diffOf a v.1 (a.image v.1.pixel)).2)]) := by
    unfold scanStepT
    rw [accs_bind (res_touch _), accs_bind (diffOfT_res a v.1 _)]
    rfl
  rw [h.pixel] at hacc
  refine ⟨_, hacc, ?_⟩
  rw [← h.pixel]
  intro x hx
  rcases List.mem_append.1 hx with hx | hx
  · exact diffOfT_inner hcol _ x hx
  · simp only [List.mem_cons, List.not_mem_nil, or_false] at hx
    rcases hx with rfl | rfl <;> exact ⟨by decide, by decide, by decide, by omega, by rw [if_neg (by decide)]; omega⟩

/-- The first pass reads the samples once, in order. -/
theorem frequencyScanT_accs {a : Args} (hw : 1 ≤ a.width) (hrl : 1 ≤ a.readLength) :
    (∀ x ∈ (frequencyScanT a).accs, Inner a x ∨ ∃ n, n < a.width * a.height ∧ x = .rd .image (strided a.readLength a.skipLength n)) ∧
    proj .image (frequencyScanT a).accs = (List.range (a.width * a.height)).map (fun n => .rd .image (strided a.readLength a.skipLength n)) ∧
    proj .delin (frequencyScanT a).accs = [] ∧ proj .out (frequencyScanT a).accs = [] := by
  have key : ∀ N, N ≤ a.width * a.height → ∃ v, (forE (fun _ => scanStepT a) N (Cur.init a, fun _ => 0)).res = .ok v ∧ CurInv a (samples a) N v.1 ∧
      (∀ x ∈ (forE (fun _ => scanStepT a) N (Cur.init a, fun _ => 0)).accs, Inner a x ∨ ∃ n, n < a.width * a.height ∧ x = .rd .image (strided a.readLength a.skipLength n)) ∧
      proj .image (forE (fun _ => scanStepT a) N (Cur.init a, fun _ => 0)).accs = (List.range N).map (fun n => .rd .image (strided a.readLength a.skipLength n)) ∧
      proj .delin (forE (fun _ => scanStepT a) N (Cur.init a, fun _ => 0)).accs = [] ∧ proj .out (forE (fun _ => scanStepT a) N (Cur.init a, fun _ => 0)).accs = [] := by
    intro N
    induction N with
    | zero => intro _; exact ⟨_, rfl, cur_init a _, fun x hx => (by cases hx), rfl, rfl, rfl⟩
    | succ N ih =>
      intro hN
      obtain ⟨v, h1, h2, h3, h4, h5, h6⟩ := ih (by omega)
      have hp : a.image v.1.pixel = (samples a).getD N 0 := by rw [h2.pixel, samples_getD (by omega)]
      obtain ⟨l, l1, l2⟩ := scanStepT_accs hw hrl h2 hp
      obtain ⟨p1, p2, p3⟩ := proj_inner l2
      have hr := scanStepT_res a v
      refine ⟨(next a (diffOf a v.1 (a.image v.1.pixel)).1, put v.2 (ssssOf (diffOf a v.1 (a.image v.1.pixel)).2) (v.2 (ssssOf (diffOf a v.1 (a.image v.1.pixel)).2) + 1)),
        ?_, (cur_step hw hrl h2 hp).2, ?_⟩
      · unfold forE
        rw [res_bind, h1]
        exact hr
      · unfold forE
        rw [accs_bind h1]
        rw [l1]
        refine ⟨?_, ?_, ?_, ?_⟩
        · intro x hx
          rcases List.mem_append.1 hx with hx | hx
          · exact h3 x hx
          · rcases List.mem_cons.1 hx with hx | hx
            · exact Or.inr ⟨N, by omega, hx⟩
            · exact Or.inl (l2 x hx)
        · rw [proj_append, h4, List.range_succ, List.map_append]
          congr 1
          show _ :: proj .image l = _
          rw [p1]; rfl
        · rw [proj_append, h5]
          exact p2
        · rw [proj_append, h6]
          exact p3
  obtain ⟨v, _, _, h⟩ := key (a.width * a.height) (Nat.le_refl _)
  exact h

/-! ### The output -/

/-- Writes at consecutive places of the output. -/
def puts (i n : Nat) : List Acc := (List.range' i n).map fun (k : Nat) => .wr .out k

theorem puts_append (i n m : Nat) : puts i n ++ puts (i + n) m = puts i (n + m) := by
  unfold puts
  rw [← List.map_append, List.range'_append_1]

theorem putT_accs (s : Wr) : ∃ o, (putT s).res = .ok o ∧ (putT s).accs = puts s.out.length (o.length - s.out.length) ∧ s.out.length < o.length ∧
    o.length ≤ s.out.length + 2 := by
  refine ⟨_, putT_res s, ?_⟩
  unfold putT
  rw [accs_bind (res_touch _)]
  by_cases h : s.next = 255
  · rw [if_pos h, if_pos h, accs_bind (res_touch _)]
    simp only [List.length_append, List.length_cons, List.length_nil]
    refine ⟨?_, by omega, by omega⟩
    rw [show s.out.length + (0 + 1) + (0 + 1) - s.out.length = 2 by omega]
    rfl
  · rw [if_neg h, if_neg h]
    simp only [List.length_append, List.length_cons, List.length_nil]
    refine ⟨?_, by omega, by omega⟩
    rw [show s.out.length + (0 + 1) + 0 - s.out.length = 1 by omega]
    rfl

/-- Only the output is written, at consecutive places below `len`. -/
def Puts (len : Nat) (i : Nat) (l : List Acc) (j : Nat) : Prop := i ≤ j ∧ j ≤ len ∧ l = puts i (j - i)

theorem Puts.nil {len i : Nat} (h : i ≤ len) : Puts len i [] i := ⟨Nat.le_refl _, h, by rw [Nat.sub_self]; rfl⟩

theorem Puts.app {len i j k : Nat} {l m : List Acc} (h1 : Puts len i l j) (h2 : Puts len j m k) : Puts len i (l ++ m) k := by
  obtain ⟨a1, a2, a3⟩ := h1
  obtain ⟨b1, b2, b3⟩ := h2
  refine ⟨by omega, b2, ?_⟩
  rw [a3, b3, show k - i = (j - i) + (k - j) by omega, ← puts_append, show i + (j - i) = j by omega]

theorem flushT_puts {len : Nat} {s : Wr} (hs : s.out.length ≤ len) :
    (∃ s', (flushT len s).res = .ok s' ∧ Puts len s.out.length (flushT len s).accs s'.out.length) ∨
    ((∃ e, (flushT len s).res = .error e) ∧ (flushT len s).accs = []) := by
  unfold flushT
  by_cases h1 : s.nextbits = 0
  · rw [if_pos h1]
    by_cases h2 : s.out.length ≥ len - 1
    · rw [if_pos h2]; exact Or.inr ⟨⟨_, rfl⟩, rfl⟩
    · rw [if_neg h2]
      obtain ⟨o, p1, p2, p3, p4⟩ := putT_accs s
      refine Or.inl ⟨⟨0, 8, o⟩, ?_, ?_⟩
      · rw [res_bind, p1]; rfl
      · rw [accs_bind p1]
        refine ⟨by dsimp only; omega, by dsimp only; omega, ?_⟩
        rw [p2]
        exact List.append_nil _
  · rw [if_neg h1]
    exact Or.inl ⟨s, rfl, Puts.nil hs⟩

theorem emitT_puts {len : Nat} : ∀ (fuel v n : Nat) (s : Wr), s.out.length ≤ len →
    ∃ j, Puts len s.out.length (emitT len fuel v n s).accs j ∧ ∀ s', (emitT len fuel v n s).res = .ok s' → s'.out.length = j := by
  intro fuel
  induction fuel with
  | zero =>
    intro v n s hs
    unfold emitT
    split
    · exact ⟨_, Puts.nil hs, fun _ h => by cases h⟩
    · exact ⟨_, Puts.nil hs, fun _ h => by injection h with h; subst h; rfl⟩
  | succ fuel ih =>
    intro v n s hs
    unfold emitT
    split
    · dsimp only
      generalize hu : (if n > s.nextbits then s.nextbits else n) = u
      generalize hw : (⟨(s.next ||| (v >>> (n - u)) <<< (s.nextbits - u)) % 256, s.nextbits - u, s.out⟩ : Wr) = w
      have hwo : w.out = s.out := by rw [← hw]
      rcases flushT_puts (len := len) (s := w) (by rw [hwo]; exact hs) with ⟨s1, f1, f2⟩ | ⟨⟨e, f1⟩, f2⟩
      · obtain ⟨j, i1, i2⟩ := ih (v % 2 ^ (n - u)) (n - u) s1 f2.2.1
        rw [hwo] at f2
        refine ⟨j, ?_, ?_⟩
        · rw [accs_bind f1]; exact f2.app i1
        · intro s' h
          rw [res_bind, f1] at h
          exact i2 s' h
      · refine ⟨s.out.length, ?_, fun s' h => ?_⟩
        · have : (flushT len w >>= fun s => emitT len fuel (v % 2 ^ (n - u)) (n - u) s).accs = (flushT len w).accs := by
            show (TrE.bind _ _).accs = _
            unfold TrE.bind
            rw [f1]
          rw [this, f2]
          exact Puts.nil hs
        · rw [res_bind, f1] at h; cases h
    · exact ⟨_, Puts.nil hs, fun _ h => by injection h with h; subst h; rfl⟩

theorem accs_bind_error {m : TrE α} {f : α → TrE β} {e : Err} (h : m.res = .error e) : (m >>= f).accs = m.accs := by
  show (TrE.bind m f).accs = _
  unfold TrE.bind
  rw [h]

/-! ### The second pass -/

/-- The reads of sample `n` in the second pass. -/
def reads (a : Args) (n : Nat) : List Acc :=
  match a.delinearize with
  | none => [.rd .image (strided a.readLength a.skipLength n)]
  | some _ => [.rd .image (strided a.readLength a.skipLength n), .rd .delin (a.image (strided a.readLength a.skipLength n))]

theorem valueT_accs {a : Args} {n k : Nat} (h : k = strided a.readLength a.skipLength n) : (valueT a k).accs = reads a n := by
  subst h
  unfold valueT reads
  rw [accs_bind (res_touch _)]
  cases a.delinearize <;> rfl

theorem symbols_lt (huffval : List Nat) (codes : List (Nat × Nat)) (k : Nat) : symbols huffval codes k < 18 := by
  unfold symbols
  have key : ∀ (l : List Nat) (sym : Nat → Nat), (∀ i ∈ l, i < 18) → sym k < 18 →
      l.foldl (fun sym i => if (codes.getD i (0, 0)).1 > 0 then put sym (huffval.getD i 0) i else sym) sym k < 18 := by
    intro l
    induction l with
    | nil => intro sym _ h; exact h
    | cons i l ih =>
      intro sym hl h
      rw [List.foldl_cons]
      apply ih _ (fun j hj => hl j (List.mem_cons_of_mem _ hj))
      have hi := hl i (List.mem_cons_self ..)
      split
      · unfold put; split
        · exact hi
        · exact h
      · exact h
  exact key _ _ (fun i hi => List.mem_range.1 hi) (by decide)

/-- One pixel: the sample, inner accesses, output. -/
theorem bodyStepT_accs {a : Args} {acc : List Nat} (hw : 1 ≤ a.width) (hrl : 1 ≤ a.readLength) {t : Tab} (ht : ∀ k, t.huffsym k < 18) {n : Nat} {v : Cur × Wr}
    (h : CurInv a acc n v.1) (hp : a.value v.1.pixel = acc.getD n 0) (hs : v.2.out.length ≤ a.encodedLength) :
    ∃ l o j, (bodyStepT a t v).accs = reads a n ++ l ++ o ∧ (∀ x ∈ l, Inner a x) ∧ Puts a.encodedLength v.2.out.length o j ∧
      ∀ v', (bodyStepT a t v).res = .ok v' → v'.2.out.length = j ∧ CurInv a acc (n + 1) v'.1 := by
  have hcol : v.1.col < a.width := by rw [h.col]; exact Nat.mod_lt _ hw
  obtain ⟨s1, s2⟩ := cur_step hw hrl h hp
  have hss : ssssOf (diffOf a v.1 (a.value v.1.pixel)).2 ≤ 16 := by
    rw [s1, ssssOf_cls (Nat.lt_of_lt_of_le (diff6_lt ..) (by decide))]
    exact cls_diff6_le ..
  unfold bodyStepT
  rw [accs_bind (valueT_res a _), accs_bind (diffOfT_res a v.1 _), valueT_accs h.pixel]
  dsimp only
  rw [accs_bind (res_touch _)]
  simp only [res_bind, valueT_res, diffOfT_res, res_touch]
  generalize hd : diffOf a v.1 (a.value v.1.pixel) = r at *
  generalize ssssOf r.2 = ss at *
  have hl : ∀ x ∈ (diffOfT a v.1 (a.value v.1.pixel)).accs ++ [.rd .huffsym ss, .rd .huffenc (t.huffsym ss), .rd .huffbits (t.huffsym ss)], Inner a x := by
    intro x hx
    rcases List.mem_append.1 hx with hx | hx
    · exact diffOfT_inner hcol _ x hx
    · have := ht ss
      simp only [List.mem_cons, List.not_mem_nil, or_false] at hx
      rcases hx with rfl | rfl | rfl <;> exact ⟨by decide, by decide, by decide, by omega, by rw [if_neg (by decide)]; omega⟩
  generalize (if r.2 < (if ss > 0 then (2 : Int) ^ (ss - 1) else 0) then r.2 + (2 ^ ss - 1) else r.2).toNat = df
  generalize t.codes.getD (t.huffsym ss) (0, 0) = code
  obtain ⟨j1, e1, e2⟩ := emitT_puts (len := a.encodedLength) 16 code.2 code.1 v.2 hs
  have app : ∀ (A B C D : List Acc), A ++ (B ++ ((touch C).accs ++ D)) = A ++ (B ++ C) ++ D := by
    intro A B C D; simp [touch]
  rw [app]
  cases hr1 : (emitT a.encodedLength 16 code.2 code.1 v.2).res with
  | error e =>
    refine ⟨_, _, j1, rfl, hl, ?_, ?_⟩
    · rw [accs_bind_error hr1]; exact e1
    · intro v' hv
      cases hv
  | ok w =>
    obtain ⟨j2, f1, f2⟩ := emitT_puts (len := a.encodedLength) 16 df ss w (by rw [e2 w hr1]; exact e1.2.1)
    rw [e2 w hr1] at f1
    cases hr2 : (emitT a.encodedLength 16 df ss w).res with
    | error e =>
      refine ⟨_, _, j2, rfl, hl, ?_, ?_⟩
      · rw [accs_bind hr1, accs_bind_error hr2]; exact e1.app f1
      · intro v' hv
        simp only [hr2] at hv; cases hv
    | ok w2 =>
      refine ⟨_, _, j2, rfl, hl, ?_, ?_⟩
      · rw [accs_bind hr1, accs_bind hr2]
        show Puts _ _ (_ ++ (_ ++ [])) _
        rw [List.append_nil]
        exact e1.app f1
      · intro v' hv
        simp only [hr2, res_ret] at hv
        injection hv with hv
        subst hv
        exact ⟨f2 w2 hr2, s2⟩

/-- The accesses of the second pass. -/
theorem bodyLoopT_accs {a : Args} (hw : 1 ≤ a.width) (hrl : 1 ≤ a.readLength) {t : Tab} (ht : ∀ k, t.huffsym k < 18) : ∀ (k n : Nat) (v : Cur × Wr),
    n + k = a.width * a.height → CurInv a (values a) n v.1 → v.2.out.length ≤ a.encodedLength →
    (∀ x ∈ (bodyLoopT a t k v).accs, Inner a x ∨ (∃ m, m < a.width * a.height ∧ x ∈ reads a m) ∨ ∃ i, i < a.encodedLength ∧ x = .wr .out (i : Nat)) ∧
    ∀ v', (bodyLoopT a t k v).res = .ok v' → Puts a.encodedLength v.2.out.length (proj .out (bodyLoopT a t k v).accs) v'.2.out.length ∧
      proj .image (bodyLoopT a t k v).accs = (List.range' n k).map (fun n => .rd .image (strided a.readLength a.skipLength n)) ∧
      proj .delin (bodyLoopT a t k v).accs = (List.range' n k).flatMap fun n => proj .delin (reads a n)
  | 0, n, v, _, _, hs => by
    refine ⟨fun x hx => (by cases hx), fun v' h => ?_⟩
    injection h with h
    subst h
    exact ⟨Puts.nil hs, rfl, rfl⟩
  | k + 1, n, v, hn, hc, hs => by
    have hp : a.value v.1.pixel = (values a).getD n 0 := by rw [hc.pixel, values_getD (by omega)]
    obtain ⟨l, o, j, b1, b2, b3, b4⟩ := bodyStepT_accs hw hrl ht hc hp hs
    have hmem : ∀ x ∈ (bodyStepT a t v).accs, Inner a x ∨ (∃ m, m < a.width * a.height ∧ x ∈ reads a m) ∨ ∃ i, i < a.encodedLength ∧ x = .wr .out (i : Nat) := by
      intro x hx
      rw [b1] at hx
      rcases List.mem_append.1 hx with hx | hx
      · rcases List.mem_append.1 hx with hx | hx
        · exact Or.inr (Or.inl ⟨n, by omega, hx⟩)
        · exact Or.inl (b2 x hx)
      · obtain ⟨c1, c2, c3⟩ := b3
        rw [c3] at hx
        simp only [puts, List.mem_map, List.mem_range'_1] at hx
        obtain ⟨i, hi, rfl⟩ := hx
        exact Or.inr (Or.inr ⟨i, by omega, rfl⟩)
    unfold bodyLoopT
    cases hr : (bodyStepT a t v).res with
    | error e =>
      refine ⟨fun x hx => hmem x (by rw [accs_bind_error hr] at hx; exact hx), fun v' hv => ?_⟩
      rw [res_bind, hr] at hv
      cases hv
    | ok v1 =>
      obtain ⟨d1, d2⟩ := b4 v1 hr
      obtain ⟨i1, i2⟩ := bodyLoopT_accs hw hrl ht k (n + 1) v1 (by omega) d2 (by rw [d1]; exact b3.2.1)
      rw [accs_bind hr]
      refine ⟨fun x hx => ?_, fun v' hv => ?_⟩
      · rcases List.mem_append.1 hx with hx | hx
        · exact hmem x hx
        · exact i1 x hx
      · rw [res_bind, hr] at hv
        obtain ⟨g1, g2, g3⟩ := i2 v' hv
        obtain ⟨p1, p2, p3⟩ := proj_inner b2
        have ho : proj .out o = o ∧ proj .image o = [] ∧ proj .delin o = [] := by
          rw [b3.2.2]
          refine ⟨?_, proj_nil_of ?_, proj_nil_of ?_⟩
          · unfold proj
            rw [List.filter_eq_self]
            intro x hx
            simp only [puts, List.mem_map] at hx
            obtain ⟨i, _, rfl⟩ := hx
            rfl
          · intro x hx
            simp only [puts, List.mem_map] at hx
            obtain ⟨i, _, rfl⟩ := hx
            exact Arr.noConfusion
          · intro x hx
            simp only [puts, List.mem_map] at hx
            obtain ⟨i, _, rfl⟩ := hx
            exact Arr.noConfusion
        have hre : proj .out (reads a n) = [] ∧ proj .image (reads a n) = [.rd .image (strided a.readLength a.skipLength n)] := by
          unfold reads
          cases a.delinearize <;> exact ⟨rfl, rfl⟩
        simp only [proj_append, b1, p1, p2, p3, ho, hre, List.append_nil, List.nil_append]
        refine ⟨?_, ?_, ?_⟩
        · exact b3.app (by rw [d1] at g1; exact g1)
        · rw [g2, List.range'_succ]; rfl
        · rw [g3, List.range'_succ]; rfl

/-! ### No loop runs out of turns -/

theorem gen_le {bits : Nat → Int} {maxb : Nat} : ∀ (n : Nat) (g g' : Gen), whileN (genStep bits maxb) n g = some g' → (∀ e ∈ g.codes, e.1 ≤ maxb) →
    ∀ e ∈ g'.codes, e.1 ≤ maxb
  | 0, _, _, h, _ => by cases h
  | n + 1, g, g', h, hg => by
    unfold whileN at h
    cases hs : genStep bits maxb g with
    | none => rw [hs] at h; injection h with h; subst h; exact hg
    | some g1 =>
      rw [hs] at h
      refine gen_le n g1 g' h ?_
      unfold genStep at hs
      split at hs
      · split at hs
        · cases hs
        · rename_i hb
          split at hs
          · injection hs with hs; subst hs; exact hg
          · split at hs
            · injection hs with hs; subst hs; exact hg
            · injection hs with hs; subst hs
              intro e he
              rcases List.mem_append.1 he with he | he
              · exact hg e he
              · simp only [List.mem_cons, List.not_mem_nil, or_false] at he
                subst he
                dsimp only; omega
      · cases hs

/-- What `createEncodeTable` gives has codes of up to sixteen bits and symbols within the arrays. -/
theorem create_le {hist : Nat → Nat} {total : Nat} {t : Tab} (h : createEncodeTable hist total = .ok t) :
    (∀ k, (t.codes.getD k (0, 0)).1 ≤ 16) ∧ ∀ k, t.huffsym k < 18 := by
  unfold createEncodeTable at h
  split at h
  · cases h
  · split at h
    · cases h
    · rename_i bits _
      dsimp only at h
      split at h
      · cases h
      · rename_i g hg
        split at h
        · injection h with h
          subst h
          refine ⟨fun k => ?_, fun k => symbols_lt _ _ k⟩
          have := gen_le _ _ g hg (fun e he => by cases he)
          have hm := maxLen_le bits 16
          dsimp only
          rw [List.getD_eq_getElem?_getD]
          cases hq : g.codes[k]? with
          | none => simp
          | some e => exact Nat.le_trans (this e (List.mem_of_getElem? hq)) hm
        · cases h

theorem flush_bits {len : Nat} {s s' : Wr} (h : flush len s = .ok s') (h8 : s.nextbits ≤ 8) : 1 ≤ s'.nextbits ∧ s'.nextbits ≤ 8 := by
  unfold flush at h
  split at h
  · split at h
    · cases h
    · injection h with h; subst h; dsimp only; omega
  · injection h with h; subst h; omega

theorem emit_ends {len : Nat} : ∀ (fuel v n : Nat) (s : Wr), n ≤ fuel → 1 ≤ s.nextbits → s.nextbits ≤ 8 →
    emit len fuel v n s = .error .encoder ∨ ∃ s', emit len fuel v n s = .ok s' ∧ 1 ≤ s'.nextbits ∧ s'.nextbits ≤ 8 := by
  intro fuel
  induction fuel with
  | zero =>
    intro v n s hn h1 h8
    unfold emit
    rw [if_neg (by omega)]
    exact Or.inr ⟨s, rfl, h1, h8⟩
  | succ fuel ih =>
    intro v n s hn h1 h8
    unfold emit
    by_cases h0 : n > 0
    · rw [if_pos h0]
      dsimp only
      generalize hu : (if n > s.nextbits then s.nextbits else n) = u
      have hu1 : 1 ≤ u ∧ u ≤ s.nextbits := by rw [← hu]; split <;> omega
      cases hf : flush len ⟨(s.next ||| (v >>> (n - u)) <<< (s.nextbits - u)) % 256, s.nextbits - u, s.out⟩ with
      | error e =>
        left
        unfold flush at hf
        split at hf
        · split at hf
          · injection hf with hf; subst hf; rfl
          · cases hf
        · cases hf
      | ok s1 =>
        obtain ⟨b1, b8⟩ := flush_bits hf (by dsimp only; omega)
        exact ih _ _ s1 (by omega) b1 b8
    · rw [if_neg h0]
      exact Or.inr ⟨s, rfl, h1, h8⟩

theorem bodyLoop_ends {a : Args} (hw : 1 ≤ a.width) (hrl : 1 ≤ a.readLength) {t : Tab} (ht : ∀ k, (t.codes.getD k (0, 0)).1 ≤ 16) : ∀ (k n : Nat) (v : Cur × Wr),
    n + k = a.width * a.height → CurInv a (values a) n v.1 → 1 ≤ v.2.nextbits → v.2.nextbits ≤ 8 →
    bodyLoop a t k v = .error .encoder ∨ ∃ v', bodyLoop a t k v = .ok v'
  | 0, n, v, _, _, _, _ => Or.inr ⟨v, rfl⟩
  | k + 1, n, v, hn, hc, h1, h8 => by
    have hp : a.value v.1.pixel = (values a).getD n 0 := by rw [hc.pixel, values_getD (by omega)]
    obtain ⟨s1, s2⟩ := cur_step hw hrl hc hp
    have hss : ssssOf (diffOf a v.1 (a.value v.1.pixel)).2 ≤ 16 := by
      rw [s1, ssssOf_cls (Nat.lt_of_lt_of_le (diff6_lt ..) (by decide))]
      exact cls_diff6_le ..
    unfold bodyLoop bodyStep
    dsimp only
    rcases emit_ends (len := a.encodedLength) 16 (t.codes.getD (t.huffsym (ssssOf (diffOf a v.1 (a.value v.1.pixel)).2)) (0, 0)).2 _ v.2 (ht _) h1 h8 with e1 | ⟨w, e1, e2, e3⟩
    · rw [e1]; exact Or.inl rfl
    · rw [e1]
      dsimp only
      generalize (if (diffOf a v.1 (a.value v.1.pixel)).2 < _ then _ else (diffOf a v.1 (a.value v.1.pixel)).2).toNat = df
      rcases emit_ends (len := a.encodedLength) 16 df _ w hss e2 e3 with f1 | ⟨w2, f1, f2, f3⟩
      · rw [f1]; exact Or.inl rfl
      · rw [f1]
        exact bodyLoop_ends hw hrl ht k (n + 1) _ (by omega) s2 f2 f3

end Model.Lj92.Enc
