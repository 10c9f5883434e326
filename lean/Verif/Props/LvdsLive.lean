/- Property theorems C56 and C74, continued: every frame of the 40-bit stream core ends. -/
import Verif.Props.LvdsFrames
import Verif.Props.NetLvdsAll

set_option autoImplicit false

namespace Props.LvdsAll
open Spec Model Props Netlist

/-- The packer holds back its producer only while it waits for a buffer. -/
theorem busy_idle {s : Pack40} (h : s.oBusy = true → isIdle s.fsm = true) (d : Nat) (v b r : Bool) :
    (s.step d v b r).oBusy = true → isIdle (s.step d v b r).fsm = true := by
  obtain ⟨b1, v1, b2, v2, chs, t, valid, ob, fsm⟩ := s
  cases fsm <;> cases r <;> cases v <;> cases v1 <;> cases v2 <;> cases b <;> cases chs <;> cases valid <;>
    simp_all [Pack40.step, Pack40.stepFsm, Pack40.stepOut, isIdle]

/-- While it waits for the first buffer, the output alone decides. -/
theorem wait1 {s : Pack40} (hf : s.fsm = .idle1) (hv : s.valid1 = true) (d : Nat) (v b r : Bool) :
    (s.step d v b r).fsm = .idle1 ∧
    (s.valid = false → (s.step d v b r).valid = true ∧ (s.step d v b r).chs = s.chs) ∧
    (s.valid = true → b = true → (s.step d v b r).valid = true ∧ (s.step d v b r).chs = s.chs) ∧
    (s.valid = true → b = false → s.chs = true → (s.step d v b r).chs = false) ∧
    (s.valid = true → b = false → s.chs = false → (s.step d v b r).valid1 = false) := by
  obtain ⟨b1, v1, b2, v2, chs, t, valid, ob, fsm⟩ := s
  dsimp only at hf hv
  subst hf hv
  cases r <;> cases b <;> cases chs <;> cases valid <;> simp [Pack40.step, Pack40.stepFsm, Pack40.stepOut]

/-- While it waits for the second buffer. -/
theorem wait2 {s : Pack40} (hf : s.fsm = .idle2) (hv : s.valid2 = true) (d : Nat) (v b : Bool) :
    (s.step d v b false).fsm = .idle2 ∧
    (s.valid = false → (s.step d v b false).valid = true ∧ (s.step d v b false).chs = s.chs) ∧
    (s.valid = true → b = true → (s.step d v b false).valid = true ∧ (s.step d v b false).chs = s.chs) ∧
    (s.valid = true → b = false → s.chs = false → (s.step d v b false).chs = true) ∧
    (s.valid = true → b = false → s.chs = true → (s.step d v b false).valid2 = false) := by
  obtain ⟨b1, v1, b2, v2, chs, t, valid, ob, fsm⟩ := s
  dsimp only at hf hv
  subst hf hv
  cases b <;> cases chs <;> cases valid <;> simp [Pack40.step, Pack40.stepFsm, Pack40.stepOut]

theorem leave1 {s : Pack40} (hf : s.fsm = .idle1) (hv : s.valid1 = false) (d : Nat) (v b r : Bool) :
    (s.step d v b r).oBusy = false := by
  obtain ⟨b1, v1, b2, v2, chs, t, valid, ob, fsm⟩ := s
  dsimp only at hf hv
  subst hf hv
  cases r <;> simp [Pack40.step, Pack40.stepFsm]

theorem leave2 {s : Pack40} (hf : s.fsm = .idle2) (hv : s.valid2 = false) (d : Nat) (v b r : Bool) :
    (s.step d v b r).oBusy = false := by
  obtain ⟨b1, v1, b2, v2, chs, t, valid, ob, fsm⟩ := s
  dsimp only at hf hv
  subst hf hv
  cases r <;> simp [Pack40.step, Pack40.stepFsm]

/-- A packer over time: any inputs, resets included. -/
structure PackRun where
  p : Nat → Pack40
  d : Nat → Nat
  v : Nat → Bool
  b : Nat → Bool
  r : Nat → Bool
  next : ∀ n, p (n + 1) = (p n).step (d n) (v n) (b n) (r n)
  start : (p 0).oBusy = true → isIdle (p 0).fsm = true
  ready : ∀ n, ∃ m, n ≤ m ∧ b m = false

theorem PackRun.idle (R : PackRun) : ∀ n, (R.p n).oBusy = true → isIdle (R.p n).fsm = true := by
  intro n
  induction n with
  | zero => exact R.start
  | succ n ih => rw [R.next]; exact busy_idle ih _ _ _ _

/-- A transfer at `m`, the next time the receiver is ready: until then valid and the selector stay. -/
theorem hold {p : Nat → Pack40} {b : Nat → Bool} {n : Nat}
    (h1 : ∀ m, n ≤ m → (p m).valid = false → (p (m + 1)).valid = true ∧ (p (m + 1)).chs = (p m).chs)
    (h2 : ∀ m, n ≤ m → (p m).valid = true → b m = true → (p (m + 1)).valid = true ∧ (p (m + 1)).chs = (p m).chs)
    (hb : ∀ n, ∃ m, n ≤ m ∧ b m = false) (k : Nat) (hk : n ≤ k) :
    ∃ m, k ≤ m ∧ (p m).valid = true ∧ b m = false ∧ (p m).chs = (p k).chs := by
  obtain ⟨k', hk', hv', hc'⟩ : ∃ k', k ≤ k' ∧ (p k').valid = true ∧ (p k').chs = (p k).chs := by
    cases hv : (p k).valid with
    | true => exact ⟨k, Nat.le_refl _, hv, rfl⟩
    | false => exact ⟨k + 1, by omega, h1 k hk hv⟩
  obtain ⟨m, hm, hbm⟩ := hb k'
  obtain ⟨j, rfl⟩ : ∃ j, m = k' + j := ⟨m - k', by omega⟩
  clear hm
  induction j generalizing k' with
  | zero => exact ⟨k', hk', hv', hbm, hc'⟩
  | succ j ih =>
    cases hb' : b k' with
    | false => exact ⟨k', hk', hv', hb', hc'⟩
    | true =>
      obtain ⟨e1, e2⟩ := h2 k' (by omega) hv' hb'
      exact ih (k' + 1) (by omega) e1 (e2.trans hc') (by rw [show k' + 1 + j = k' + (j + 1) by omega]; exact hbm)

/-- The packer cannot hold back its producer for ever. -/
theorem PackRun.free (R : PackRun) (n : Nat) : ∃ m, n ≤ m ∧ (R.p m).oBusy = false := by
  apply Classical.byContradiction
  intro hcon
  have hbusy : ∀ m, n ≤ m → (R.p m).oBusy = true := by
    intro m hm
    cases h : (R.p m).oBusy with
    | true => rfl
    | false => exact absurd ⟨m, hm, h⟩ hcon
  have hidle : ∀ m, n ≤ m → (R.p m).fsm = .idle1 ∨ (R.p m).fsm = .idle2 := by
    intro m hm
    have := R.idle m (hbusy m hm)
    cases hf : (R.p m).fsm <;> simp [hf, isIdle] at this ⊢
  have hv1 : ∀ m, n ≤ m → (R.p m).fsm = .idle1 → (R.p m).valid1 = true := by
    intro m hm hf
    cases hv : (R.p m).valid1 with
    | true => rfl
    | false =>
      have := leave1 hf hv (R.d m) (R.v m) (R.b m) (R.r m)
      rw [← R.next, hbusy (m + 1) (by omega)] at this
      cases this
  have hv2 : ∀ m, n ≤ m → (R.p m).fsm = .idle2 → (R.p m).valid2 = true := by
    intro m hm hf
    cases hv : (R.p m).valid2 with
    | true => rfl
    | false =>
      have := leave2 hf hv (R.d m) (R.v m) (R.b m) (R.r m)
      rw [← R.next, hbusy (m + 1) (by omega)] at this
      cases this
  by_cases h1 : ∃ k, n ≤ k ∧ (R.p k).fsm = .idle1
  · obtain ⟨k, hk, hf⟩ := h1
    have hall : ∀ j, (R.p (k + j)).fsm = .idle1 := by
      intro j
      induction j with
      | zero => exact hf
      | succ j ih => rw [← Nat.add_assoc, R.next]; exact (wait1 ih (hv1 _ (by omega) ih) _ _ _ _).1
    have hall : ∀ m, k ≤ m → (R.p m).fsm = .idle1 := by
      intro m hm
      have := hall (m - k)
      rwa [show k + (m - k) = m by omega] at this
    have hw : ∀ m, k ≤ m → _ := fun m hm => (wait1 (hall m hm) (hv1 m (by omega) (hall m hm)) (R.d m) (R.v m) (R.b m) (R.r m)).2
    have hh := hold (p := R.p) (b := R.b) (n := k) (fun m hm => by rw [R.next]; exact (hw m hm).1)
      (fun m hm => by rw [R.next]; exact (hw m hm).2.1) R.ready
    have hgo : ∀ k', k ≤ k' → (R.p k').chs = false → False := by
      intro k' hk' hc
      obtain ⟨m, hm, e1, e2, e3⟩ := hh k' hk'
      have := (hw m (by omega)).2.2.2 e1 e2 (e3.trans hc)
      rw [← R.next, hv1 (m + 1) (by omega) (hall (m + 1) (by omega))] at this
      cases this
    cases hc : (R.p k).chs with
    | false => exact hgo k (Nat.le_refl _) hc
    | true =>
      obtain ⟨m, hm, e1, e2, e3⟩ := hh k (Nat.le_refl _)
      have := (hw m (by omega)).2.2.1 e1 e2 (e3.trans hc)
      rw [← R.next] at this
      exact hgo (m + 1) (by omega) this
  · have hall : ∀ m, n ≤ m → (R.p m).fsm = .idle2 := by
      intro m hm
      rcases hidle m hm with h | h
      · exact absurd ⟨m, hm, h⟩ h1
      · exact h
    have hr : ∀ m, n ≤ m → R.r m = false := by
      intro m hm
      cases hr : R.r m with
      | false => rfl
      | true =>
        have := hall (m + 1) (by omega)
        rw [R.next, hr] at this
        simp [Pack40.step] at this
    have hw : ∀ m, n ≤ m → _ := fun m hm => (wait2 (hall m hm) (hv2 m hm (hall m hm)) (R.d m) (R.v m) (R.b m)).2
    have hnx : ∀ m, n ≤ m → R.p (m + 1) = (R.p m).step (R.d m) (R.v m) (R.b m) false := by
      intro m hm; rw [R.next, hr m hm]
    have hh := hold (p := R.p) (b := R.b) (n := n) (fun m hm => by rw [hnx m hm]; exact (hw m hm).1)
      (fun m hm => by rw [hnx m hm]; exact (hw m hm).2.1) R.ready
    have hgo : ∀ k', n ≤ k' → (R.p k').chs = true → False := by
      intro k' hk' hc
      obtain ⟨m, hm, e1, e2, e3⟩ := hh k' hk'
      have := (hw m (by omega)).2.2.2 e1 e2 (e3.trans hc)
      rw [← hnx m (by omega), hv2 (m + 1) (by omega) (hall (m + 1) (by omega))] at this
      cases this
    cases hc : (R.p n).chs with
    | true => exact hgo n (Nat.le_refl _) hc
    | false =>
      obtain ⟨m, hm, e1, e2, e3⟩ := hh n (Nat.le_refl _)
      have := (hw m (by omega)).2.2.1 e1 e2 (e3.trans hc)
      rw [← hnx m (by omega)] at this
      exact hgo (m + 1) (by omega) this

/-! ### The core with its packer -/

/-- State after `t` cycles of an infinite schedule. -/
def lvdsAt (c : CoreCfg) (a : Nat) (s : LvdsSys) (u : Nat → StreamIn) : Nat → LvdsSys
  | 0 => s
  | t + 1 => (lvdsAt c a s u t).step c a (u t)

section
variable {c : CoreCfg} {a : Nat}

theorem lvdsAt_run (s : LvdsSys) (u : Nat → StreamIn) (t : Nat) : lvdsAt c a s u t = lvdsRun c a s ((List.range t).map u) := by
  induction t with
  | zero => rfl
  | succ t ih => rw [List.range_succ, List.map_append, lvdsRun_append, ← ih]; rfl

theorem asStream_range (s : LvdsSys) (u : Nat → StreamIn) (t : Nat) :
    asStream c a s ((List.range t).map u) = (List.range t).map fun n => ⟨(u n).arrive, !(lvdsAt c a s u n).sys.pack.oBusy⟩ := by
  induction t with
  | zero => rfl
  | succ t ih => rw [List.range_succ, List.map_append, asStream_append, ih, List.map_append, ← lvdsAt_run]; rfl

theorem run_idle (l : List StreamIn) : ∀ {s : LvdsSys}, (s.sys.pack.oBusy = true → isIdle s.sys.pack.fsm = true) →
    (lvdsRun c a s l).sys.pack.oBusy = true → isIdle (lvdsRun c a s l).sys.pack.fsm = true := by
  induction l with
  | nil => intro s h; exact h
  | cons i r ih => intro s h; exact ih (s := s.step c a i) (busy_idle h _ _ _ _)

end

/-- C56, liveness of every frame: if words arrive infinitely often and the receiver of the 40-bit words is ready infinitely often, then after
`n` normally ended frames — with any schedules in them — the core gives its next frame end after finitely many cycles: the packer cannot
block it, whatever it was left with by the frames before. -/
theorem C56_every_frame_ends {c : CoreCfg} {T : Table} (h : CamSetup c T) (hps : c.int1.ps = 2) (hbd : c.int1.bd = 12)
    {a : Nat} (ha : a < 2 ^ 24) (q : List Nat) {n : Nat} {hist : List StreamIn} (hn : LvdsFrames c a q n hist) (u : Nat → StreamIn)
    (hprod : ∀ n, ∃ m, n ≤ m ∧ (u m).arrive ≠ []) (hcons : ∀ n, ∃ m, n ≤ m ∧ (u m).ready = true) :
    ∃ t w, (w, true) ∈ lvdsWords c a (lvdsRun c a ⟨.init c, q⟩ hist) ((List.range t).map u) := by
  have hf := lvds_fresh h hps hbd hn
  have hp : ∀ {s : LvdsSys}, s = lvdsRun c a ⟨.init c, q⟩ hist → (s.sys.pack.oBusy = true → isIdle s.sys.pack.fsm = true) := by
    rintro s rfl
    exact run_idle hist (s := ⟨.init c, q⟩) (fun h => by cases h)
  have hu : UnpackInv (unpackPart (fsOf (lvdsRun c a ⟨.init c, q⟩ hist))) := by
    rw [fs_run]
    exact unpackInv_run (s := ⟨.init c, q⟩) _ (unpack_inv_init q)
  generalize hs : lvdsRun c a ⟨.init c, q⟩ hist = s at hf hu
  have hp := hp hs.symm
  clear hs
  let R : PackRun :=
    { p := fun m => (lvdsAt c a s u m).sys.pack
      d := fun m => (lvdsAt c a s u m).sys.camOut.data
      v := fun m => (lvdsAt c a s u m).sys.camOut.valid
      b := fun m => !(u m).ready
      r := fun m => (lvdsAt c a s u m).sys.fs.cam.resetOut
      next := fun m => rfl
      start := hp
      ready := fun m => by obtain ⟨k, h1, h2⟩ := hcons m; exact ⟨k, h1, by simp [h2]⟩ }
  obtain ⟨t, w, hw⟩ := stream_always_ends h hps hbd ha (s0 := fsOf s) hf hu
    (fun m => ⟨(u m).arrive, !(lvdsAt c a s u m).sys.pack.oBusy⟩) hprod
    (fun m => by obtain ⟨k, h1, h2⟩ := R.free m; exact ⟨k, h1, by simpa using h2⟩)
  refine ⟨t, w, ?_⟩
  rw [fs_words, asStream_range]
  exact hw

/-- C74, liveness: the same for the netlist, after power-up or any external reset. -/
theorem C74_netlist_every_frame_ends (s : BetaLvds.top.S) (hs : LvStart s) (q : List Nat) {n : Nat} {hist : List StreamIn}
    (hn : LvNetFrames ⟨s, q⟩ n hist) (u : Nat → StreamIn)
    (hprod : ∀ n, ∃ m, n ≤ m ∧ (u m).arrive ≠ []) (hcons : ∀ n, ∃ m, n ≤ m ∧ (u m).ready = true) :
    ∃ t w, (w, true) ∈ lvNetWords (lvSysRun ⟨s, q⟩ hist) ((List.range t).map u) := by
  have hr := (lvRel_run hist (lvStart_rel hs q)).1
  obtain ⟨t, w, hw⟩ := C56_every_frame_ends beta_setup rfl rfl (a := 6666000) (by decide) q (lvNet_frames hs hn) u hprod hcons
  exact ⟨t, w, by rw [(lvRel_run _ hr).2.2]; exact hw⟩

-- A schedule that meets the hypotheses: a word arrives in every third cycle, the receiver is ready in every fifth.
example : let u : Nat → StreamIn := fun n => ⟨if n % 3 = 0 then [n] else [], n % 5 == 0⟩
    (∀ n, ∃ m, n ≤ m ∧ (u m).arrive ≠ []) ∧ (∀ n, ∃ m, n ≤ m ∧ (u m).ready = true) := by
  refine ⟨fun n => ⟨3 * n, by omega, ?_⟩, fun n => ⟨5 * n, by omega, ?_⟩⟩
  · simp
  · simp

end Props.LvdsAll
