/- Helper lemmas about the recorded memory accesses of the lj92 decoder: what holds for every input whatever. -/
import Verif.Proof.Lj92Mem

set_option autoImplicit false

namespace Model.Lj92
open Tr

/-- No claim about the accesses that depend on the contents of the input. -/
structure Loose (P : Acc → Prop) : Prop where
  inR : ∀ k, P (.inR k)
  lutR : ∀ n k, P (.lutR n k)
  hist : ∀ k, P (.hist k)

theorem load_cnt (d : Nat → Nat) (v : Nat × Nat × Nat) : v.2.1 + 8 ≤ (load d v).2.1 := by
  obtain ⟨b, cnt, ix⟩ := v
  unfold load
  dsimp only
  split
  · dsimp only; omega
  · split <;> (dsimp only; omega)

theorem refillT_any {P : Acc → Prop} (hP : Loose P) (d : Nat → Nat) {n : Nat} (hn : n ≤ 500) (v : Nat × Nat × Nat) :
    Safe P (refillT d n v) (fun _ => True) := by
  unfold refillT
  apply Safe.whileT (I := fun _ => True) (fun v => (n - v.2.1) / 8 + if v.2.1 < n then 1 else 0)
  · intro s _
    apply Safe.ite
    · intro h
      apply Safe.seq
      · intro a ha
        simp only [List.mem_cons, List.not_mem_nil, or_false] at ha
        rcases ha with rfl | rfl <;> exact hP.inR _
      · apply Safe.ret
        refine ⟨trivial, ?_⟩
        have := load_cnt d s
        rw [if_pos h]
        split <;> omega
    · intro h
      exact Safe.ret trivial
  · trivial
  · split <;> omega

theorem nextdiffT_any {P : Acc → Prop} (hP : Loose P) (ub : Int) (lutlen : Nat) {s : Ljp} (hh : s.huffbits ≤ 16) :
    Safe P (nextdiffT ub lutlen s) (fun r => ∃ b cnt ix, r.1 = { s with b := b, cnt := cnt, ix := ix }) := by
  unfold nextdiffT
  apply Safe.bind (refillT_any hP s.data (by omega) _)
  intro v _
  obtain ⟨b, cnt, ix⟩ := v
  dsimp only
  apply Safe.seq
  · intro a ha
    simp only [List.mem_singleton] at ha
    subst ha; exact hP.lutR _ _
  apply Safe.seq
  · intro a ha
    simp only [List.mem_singleton] at ha
    subst ha; exact hP.hist _
  apply Safe.bind (refillT_any hP s.data (by omega) _)
  intro v _
  exact Safe.ret ⟨_, _, _, rfl⟩

/-- The dimensions do not change. -/
structure Geo (s0 s : Ljp) : Prop where
  x : s.x = s0.x
  y : s.y = s0.y
  components : s.components = s0.components
  skiplen : s.skiplen = s0.skiplen
  huffbits : s.huffbits = s0.huffbits

theorem Geo.refl (s : Ljp) : Geo s s := ⟨rfl, rfl, rfl, rfl, rfl⟩

/-- Where the scan may touch memory. -/
structure Place (s0 : Ljp) (lk img : Nat → Prop) (P : Acc → Prop) : Prop where
  rowR : ∀ k, k < 2 * (s0.x * s0.components) → P (.rowR k)
  rowW : ∀ k, k < 2 * (s0.x * s0.components) → P (.rowW k)
  linR : ∀ k, lk k → P (.linR k)
  imgW : ∀ k, img k → P (.imgW k)

/-- What is known about reading the `n`-th of `N` differences: `J n` holds before it. -/
structure Reads (s0 : Ljp) (P : Acc → Prop) (ub : Int) (lutlen N : Nat) (J : Nat → Ljp → Prop) : Prop where
  step : ∀ n s, n < N → Geo s0 s → J n s →
    Safe P (nextdiffT ub lutlen s) (fun r => (∃ b cnt ix, r.1 = { s with b := b, cnt := cnt, ix := ix }) ∧ J (n + 1) r.1)
  keep : ∀ n s rc im, J n s → J n { s with rowcache := rc, image := im }

theorem reads_any {s0 : Ljp} {P : Acc → Prop} (hP : Loose P) (ub : Int) (lutlen N : Nat) (hh : s0.huffbits ≤ 16) :
    Reads s0 P ub lutlen N (fun _ _ => True) where
  step := fun n s _ hg _ => (nextdiffT_any hP ub lutlen (s := s) (by rw [hg.huffbits]; exact hh)).mono (fun _ h => h) (fun _ h => ⟨h, trivial⟩)
  keep := fun _ _ _ _ _ => trivial

theorem linAccs_any {P : Acc → Prop} {lk : Nat → Prop} (h : ∀ k, lk k → P (.linR k)) (lin : Option Lin) {left : Nat} (hl : lk left) :
    ∀ a ∈ linAccs lin left, P a := by
  intro a ha
  unfold linAccs at ha
  cases lin with
  | none => simp at ha
  | some l => simp only [List.mem_singleton] at ha; subst ha; exact h _ hl

theorem col_lt {x C col c : Nat} (h : col < x) (hc : c < C) : col * C + c < x * C := by
  have : (col + 1) * C ≤ x * C := Nat.mul_le_mul_right _ h
  rw [Nat.add_mul, Nat.one_mul] at this
  omega

theorem row_lt {x C j row : Nat} {s : Ljp} (hx : s.x = x) (hC : 1 ≤ C) (hj : j < x * C) : thisrow s row + j < 2 * (x * C) ∧ lastrow s row + j < 2 * (x * C) := by
  have h1 : x * 1 ≤ x * C := Nat.mul_le_mul_left _ hC
  unfold thisrow lastrow
  rw [hx]
  constructor <;> split <;> omega

theorem mod_nat_lt (p : Int) : ((p.tmod 65536) % 65536).toNat < 65536 := by omega

theorem bodyT_safe {s0 : Ljp} {lin : Option Lin} {P : Acc → Prop} (hP : Place s0 (fun k => k < 65536 ∧ beyond lin k = false) (fun k => ∃ r q, r < s0.y ∧ q < s0.x * s0.components ∧
      k = r * (s0.x * s0.components + s0.skiplen) + q) P) {ub : Int} {lutlen N : Nat} {J : Nat → Ljp → Prop} (hJ : Reads s0 P ub lutlen N J)
    (pred : Nat) {row col c n : Nat}
    (hrow : row < s0.y) (hcol : col < s0.x) (hc : c < s0.components) (hn : n < N) {v : Ljp × Int} (hv : Geo s0 v.1) (hj : J n v.1) :
    Safe P (bodyT ub lin lutlen pred row col c v) (fun v => Geo s0 v.1 ∧ J (n + 1) v.1) := by
  obtain ⟨s, left⟩ := v
  dsimp only at hv hj
  have hC : 1 ≤ s0.components := by omega
  have k1 := col_lt hcol hc
  have k2 : (col - 1) * s0.components + c < s0.x * s0.components := col_lt (by omega) hc
  have k3 : c < s0.x * s0.components := by have := col_lt (show 0 < s0.x by omega) hc; omega
  have r1 := row_lt (row := row) hv.x hC k1
  have r2 := row_lt (row := row) hv.x hC k2
  have r3 := row_lt (row := row) hv.x hC k3
  unfold bodyT
  apply Safe.seq
  · intro a ha
    dsimp only at ha
    unfold pxAccs at ha
    rw [hv.components] at ha
    dsimp only at ha
    split at ha
    · simp at ha
    split at ha
    · simp only [List.mem_singleton] at ha; subst ha; exact hP.rowR _ r2.1
    split at ha
    · simp only [List.mem_singleton] at ha; subst ha; exact hP.rowR _ r3.2
    split at ha
    · simp at ha
    · simp only [List.mem_singleton] at ha; subst ha; exact hP.rowR _ r2.1
    · simp only [List.mem_singleton] at ha; subst ha; exact hP.rowR _ r1.2
    · simp only [List.mem_singleton] at ha; subst ha; exact hP.rowR _ r2.2
    · simp only [List.mem_cons, List.not_mem_nil, or_false] at ha
      rcases ha with rfl | rfl
      · exact hP.rowR _ r1.2
      · exact hP.rowR _ r2.2
    · simp only [List.mem_cons, List.not_mem_nil, or_false] at ha
      rcases ha with rfl | rfl
      · exact hP.rowR _ r1.2
      · exact hP.rowR _ r2.2
    · simp only [List.mem_cons, List.not_mem_nil, or_false] at ha
      rcases ha with rfl | rfl
      · exact hP.rowR _ r1.2
      · exact hP.rowR _ r2.2
    · simp only [List.mem_singleton] at ha; subst ha; exact hP.rowR _ r1.2
  apply Safe.bind (hJ.step n s hn hv hj)
  intro r hr
  obtain ⟨s', diff⟩ := r
  obtain ⟨⟨b, cnt, ix, hr⟩, hj'⟩ := hr
  dsimp only at hr hj'
  have hv' : Geo s0 s' := by rw [hr]; exact ⟨hv.x, hv.y, hv.components, hv.skiplen, hv.huffbits⟩
  have q1 := row_lt (row := row) hv'.x hC k1
  dsimp only
  apply Safe.ite
  · intro _; exact Safe.fail
  · intro hbe
    apply Safe.seq (linAccs_any hP.linR lin ⟨mod_nat_lt _, by simpa using hbe⟩)
    apply Safe.seq
    · intro a ha
      rw [hv'.components, hv'.x, hv'.skiplen] at ha
      simp only [List.mem_cons, List.not_mem_nil, or_false] at ha
      rcases ha with rfl | rfl
      · exact hP.rowW _ q1.1
      · exact hP.imgW _ ⟨row, _, hrow, k1, rfl⟩
    · exact Safe.ret ⟨⟨hv'.x, hv'.y, hv'.components, hv'.skiplen, hv'.huffbits⟩, hJ.keep _ _ _ _ hj'⟩

theorem parseScanT_safe {s0 : Ljp} {lin : Option Lin} {P : Acc → Prop} (hP : Place s0 (fun k => k < 65536 ∧ beyond lin k = false) (fun k => ∃ r q, r < s0.y ∧ q < s0.x * s0.components ∧
      k = r * (s0.x * s0.components + s0.skiplen) + q) P) {ub : Int} {lutlen : Nat} {J : Nat → Ljp → Prop}
    (hJ : Reads s0 P ub lutlen (s0.y * (s0.x * s0.components)) J) (pred : Nat)
    (h0 : P (.inR s0.scanstart)) (h1 : P (.inR (s0.scanstart + 1)))
    (hi : J 0 { s0 with ix := s0.scanstart + beh s0.data s0.scanstart, cnt := 0, b := 0 }) :
    Safe P (parseScanT ub lin lutlen pred s0) (fun _ => True) := by
  unfold parseScanT
  apply Safe.seq
  · intro a ha
    simp only [List.mem_cons, List.not_mem_nil, or_false] at ha
    rcases ha with rfl | rfl
    · exact h0
    · exact h1
  generalize hW : s0.x * s0.components = W at hJ
  apply Safe.bind (Q := fun _ : Ljp × Int => True)
  · refine (Safe.forT (I := fun row (v : Ljp × Int) => Geo s0 v.1 ∧ J (row * W) v.1) s0.y ?_ _ ?_).mono (fun _ h => h) (fun _ _ => trivial)
    · intro row v hrow hv
      have hrw : (row + 1) * W ≤ s0.y * W := Nat.mul_le_mul_right _ hrow
      refine (Safe.forT (I := fun col (v : Ljp × Int) => Geo s0 v.1 ∧ J (row * W + col * s0.components) v.1) s0.x ?_ v (by simpa using hv)).mono
        (fun _ h => h) (fun _ h => by rw [Nat.add_mul, Nat.one_mul]; rw [hW] at h; exact h)
      intro col v hcol hv
      refine (Safe.forT (I := fun c (v : Ljp × Int) => Geo s0 v.1 ∧ J (row * W + col * s0.components + c) v.1) s0.components ?_ v (by simpa using hv)).mono
        (fun _ h => h) (fun _ h => by rw [Nat.add_mul, Nat.one_mul, ← Nat.add_assoc]; exact h)
      intro c v hc hv
      have k1 := col_lt hcol hc
      have hn : row * W + col * s0.components + c < s0.y * W := by rw [Nat.add_mul] at hrw; omega
      exact bodyT_safe hP hJ pred hrow hcol hc hn hv.1 hv.2
    · exact ⟨⟨rfl, rfl, rfl, rfl, rfl⟩, by simpa using hi⟩
  · intro v _; exact Safe.ret trivial

/-! ### Predictor 6 -/

theorem put6T_safe {s0 : Ljp} {wl : Nat} {P : Acc → Prop}
    (hP : Place s0 (· < 65536) (fun k => ∃ n, n < s0.x * s0.y ∧ k = Spec.strided wl s0.skiplen n) P) {ub : Int} {lutlen : Nat} {J : Nat → Ljp → Prop}
    (hJ : Reads s0 P ub lutlen (s0.x * s0.y) J) (lin : Option Lin) (check : Bool)
    {row col n : Nat} (p : Int) (hC : 1 ≤ s0.components) (hcol : col < s0.x) (hn : n < s0.x * s0.y) {reads : List Acc}
    (hreads : ∀ a ∈ reads, P a) {v : P6} (hv : Geo s0 v.s) (hj : J n v.s) (hc : v.c = n) (ho : v.out = n / wl * s0.skiplen) :
    Safe P (put6T ub lin lutlen check row col p reads v)
      (fun w => (Geo s0 w.s ∧ J (n + 1) w.s) ∧ w.c = n + 1 ∧ w.out = v.out ∧ w.write = v.write) := by
  have k1 : col < s0.x * s0.components := by
    have : s0.x * 1 ≤ s0.x * s0.components := Nat.mul_le_mul_left _ hC
    omega
  unfold put6T
  apply Safe.bind (hJ.step n v.s hn hv hj)
  intro r hr
  obtain ⟨s', diff⟩ := r
  obtain ⟨⟨b, cnt, ix, hr⟩, hj'⟩ := hr
  dsimp only at hr hj'
  have hv' : Geo s0 s' := by rw [hr]; exact ⟨hv.x, hv.y, hv.components, hv.skiplen, hv.huffbits⟩
  have q1 := row_lt (row := row) hv'.x hC k1
  dsimp only
  apply Safe.seq hreads
  apply Safe.ite
  · intro _; exact Safe.fail
  · intro _
    apply Safe.seq (linAccs_any hP.linR lin (mod_nat_lt _))
    apply Safe.seq
    · intro a ha
      simp only [List.mem_cons, List.not_mem_nil, or_false] at ha
      rcases ha with rfl | rfl
      · exact hP.rowW _ q1.1
      · exact hP.imgW _ ⟨n, hn, by rw [ho, hc, Spec.strided, Nat.add_comm]⟩
    · exact Safe.ret ⟨⟨⟨hv'.x, hv'.y, hv'.components, hv'.skiplen, hv'.huffbits⟩, hJ.keep _ _ _ _ hj'⟩, by dsimp only; rw [hc], rfl, rfl⟩

/-- Before sample `n` of `parsePred6`. -/
structure Any6 (s0 : Ljp) (J : Nat → Ljp → Prop) (wl n : Nat) (v : P6) : Prop where
  geo : Geo s0 v.s
  j : J n v.s
  c : v.c = n
  pos : Pos6 wl s0.skiplen n v

theorem Any6.step {s0 : Ljp} {J : Nat → Ljp → Prop} {wl n : Nat} (hwl : 1 ≤ wl) {v w : P6} (h : Any6 s0 J wl n v) (hg : Geo s0 w.s ∧ J (n + 1) w.s)
    (hc : w.c = n + 1) (ho : w.out = v.out) (hw : w.write = v.write) :
    Any6 s0 J wl (n + 1) (step6 wl w) := by
  obtain ⟨s1, s2, _⟩ := step_s wl w
  refine ⟨by rw [s1]; exact hg.1, by rw [s1]; exact hg.2, by rw [s2, hc], step_pos hwl hg.1.skiplen ⟨by rw [ho]; exact h.pos.1, by rw [hw]; exact h.pos.2⟩⟩

theorem rows6T_safe {s0 : Ljp} {wl : Nat} (hwl : 1 ≤ wl) {P : Acc → Prop}
    (hP : Place s0 (· < 65536) (fun k => ∃ n, n < s0.x * s0.y ∧ k = Spec.strided wl s0.skiplen n) P) {ub : Int} {lutlen : Nat} {J : Nat → Ljp → Prop}
    (hJ : Reads s0 P ub lutlen (s0.x * s0.y) J) (lin : Option Lin)
    (hC : 1 ≤ s0.components) (hx : 1 ≤ s0.x) : ∀ (fuel row : Nat) (v : P6), row ≤ s0.y → s0.y < row + fuel →
      Any6 s0 J wl (row * s0.x) v → Safe P (rows6T ub lin lutlen wl (s0.y * s0.x) fuel row v) (fun _ => True)
  | 0, row, v, hr, hf, hv => by omega
  | fuel + 1, row, v, hr, hf, hv => by
    have ih := rows6T_safe hwl hP hJ lin hC hx fuel
    unfold rows6T
    apply Safe.ite
    · intro hlt
      rw [hv.c] at hlt
      have hrow : row < s0.y := Nat.lt_of_mul_lt_mul_right hlt
      have hend : (row + 1) * s0.x ≤ s0.y * s0.x := Nat.mul_le_mul_right _ hrow
      have hle : s0.x * 1 ≤ s0.x * s0.components := Nat.mul_le_mul_left _ hC
      have hrd : ∀ j, j < s0.x → ∀ s : Ljp, s.x = s0.x → P (.rowR (lastrow s row + j)) := fun j hj s hs =>
        hP.rowR _ (row_lt (s := s) (row := row) hs hC (show j < s0.x * s0.components by omega)).2
      rw [Nat.add_mul, Nat.one_mul, Nat.mul_comm s0.y] at hend
      apply Safe.bind (put6T_safe hP hJ lin true (row := row) (col := 0) (n := row * s0.x) _ hC hx (by omega) (by
        intro a ha
        simp only [List.mem_singleton] at ha
        subst ha
        exact hrd 0 hx v.s hv.geo.x) hv.geo hv.j hv.c hv.pos.1)
      intro w hw
      apply Safe.ite
      · intro _; exact Safe.ret trivial
      · intro _
        have h1 := hv.step (by omega) hw.1 hw.2.1 hw.2.2.1 hw.2.2.2
        have hwx : w.s.x = s0.x := hw.1.1.x
        rw [hwx]
        apply Safe.bind (Q := Any6 s0 J wl (row * s0.x + (s0.x - 1 + 1)))
        · apply Safe.forT (I := fun k v => Any6 s0 J wl (row * s0.x + (k + 1)) v) (n := s0.x - 1)
          · intro k u hk hu
            apply Safe.bind (put6T_safe hP hJ lin true (row := row) (col := k + 1) (n := row * s0.x + (k + 1)) _ hC (by omega) (by omega) (by
              intro a ha
              simp only [List.mem_cons, List.not_mem_nil, or_false] at ha
              rcases ha with rfl | rfl
              · exact hrd (k + 1) (by omega) u.s hu.geo.x
              · exact hrd k (by omega) u.s hu.geo.x) hu.geo hu.j hu.c hu.pos.1)
            intro u' hu'
            exact Safe.ret (hu.step (by omega) hu'.1 hu'.2.1 hu'.2.2.1 hu'.2.2.2)
          · exact h1
        · intro u hu
          apply Safe.ite
          · intro _; exact Safe.ret trivial
          · intro _
            refine ih (row + 1) u hrow (by omega) ?_
            rw [show s0.x - 1 + 1 = s0.x by omega] at hu
            rw [Nat.add_mul, Nat.one_mul]
            exact hu
    · intro _; exact Safe.ret trivial

theorem parsePred6T_safe {s0 : Ljp} {wl : Nat} (hwl : 2 ≤ wl) {P : Acc → Prop}
    (hP : Place s0 (· < 65536) (fun k => ∃ n, n < s0.x * s0.y ∧ k = Spec.strided wl s0.skiplen n) P) {ub : Int} {lutlen : Nat} {J : Nat → Ljp → Prop}
    (hJ : Reads s0 P ub lutlen (s0.x * s0.y) J) (lin : Option Lin)
    (hC : 1 ≤ s0.components) (hx : 1 ≤ s0.x) (hy : 1 ≤ s0.y) (h0 : P (.inR s0.scanstart)) (h1 : P (.inR (s0.scanstart + 1)))
    (hi : J 0 { s0 with ix := s0.scanstart + beh s0.data s0.scanstart, cnt := 0, b := 0 }) :
    Safe P (parsePred6T ub lin lutlen wl s0) (fun _ => True) := by
  have hend : s0.x * 1 ≤ s0.x * s0.y := Nat.mul_le_mul_left _ hy
  unfold parsePred6T
  apply Safe.seq
  · intro a ha
    simp only [List.mem_cons, List.not_mem_nil, or_false] at ha
    rcases ha with rfl | rfl
    · exact h0
    · exact h1
  dsimp only
  apply Safe.bind (put6T_safe hP hJ lin false (row := 0) (col := 0) (n := 0) _ hC hx (by omega) (by simp) ⟨rfl, rfl, rfl, rfl, rfl⟩ hi rfl (by simp))
  intro v hv
  apply Safe.bind (Q := fun w => w = v)
  · exact Safe.ite (fun _ => Safe.fail) (fun _ => Safe.ret rfl)
  intro w hw
  subst hw
  apply Safe.bind (Q := Any6 s0 J wl (s0.x - 1 + 1))
  · apply Safe.forT (I := fun k v => Any6 s0 J wl (k + 1) v) (n := s0.x - 1)
    · intro k u hk hu
      apply Safe.bind (put6T_safe hP hJ lin false (row := 0) (col := k + 1) (n := k + 1) _ hC (by omega) (by omega) (by simp) hu.geo hu.j hu.c hu.pos.1)
      intro u' hu'
      apply Safe.bind (Q := fun w => w = u')
      · exact Safe.ite (fun _ => Safe.fail) (fun _ => Safe.ret rfl)
      intro w hw
      subst hw
      exact Safe.ret (hu.step (by omega) hu'.1 hu'.2.1 hu'.2.2.1 hu'.2.2.2)
    · refine ⟨hv.1.1, hv.1.2, hv.2.1, ?_, ?_⟩
      · dsimp only; rw [hv.2.2.1, Nat.div_eq_of_lt (by omega)]; simp
      · dsimp only; rw [hv.2.2.2, Nat.mod_eq_of_lt (by omega)]; rfl
  · intro u hu
    apply Safe.bind (rows6T_safe (by omega) hP hJ lin hC hx (s0.y + 1) 1 u hy (by omega) (by
      rw [show s0.x - 1 + 1 = s0.x by omega] at hu
      rw [Nat.one_mul]; exact hu))
    intro w _
    exact Safe.ite (fun _ => Safe.ret trivial) (fun _ => Safe.fail)

/-! ### The header -/

theorem maxbitsAccs_inR (at' : Nat) (bits : Nat → Nat) : ∀ n, ∀ a ∈ maxbitsAccs at' bits n, ∃ k, k ≤ n ∧ a = .inR (at' + k)
  | 0, a, h => by simp [maxbitsAccs] at h
  | n + 1, a, h => by
    unfold maxbitsAccs at h
    rw [List.mem_cons] at h
    rcases h with h | h
    · exact ⟨n + 1, Nat.le_refl _, h⟩
    · split at h
      · simp at h
      · obtain ⟨k, h1, h2⟩ := maxbitsAccs_inR at' bits n a h
        exact ⟨k, by omega, h2⟩

end Model.Lj92
