/- Property theorems C65: the cycle budget bounds the size of a frame. -/
import Verif.Props.Forced
import Verif.Props.BetaLive

set_option autoImplicit false

namespace Props
open Spec Model

/-- Cycles the budget counter has run. -/
def fendAge (allowed : Nat) (f : ForceEnd) : Nat :=
  match f.fsm with
  | .idle => 0
  | .counting => f.counter
  | .fin => if f.fend then allowed + 2 else allowed + 1

/-- Nothing has come out of the core yet. -/
def NothingOut (s : Cam) : Prop :=
  s.fix1.oBusy = false ∧ s.fix1.regValid = false ∧ s.fix1.valid = false ∧ s.fix2 = .init ∧ s.marks.fsm = .idle

/-- The number of words given, in terms of the budget counter. -/
structure Cap (allowed : Nat) (f : ForceEnd) (m : Markers) (n : Nat) : Prop where
  idl : f.fsm = .idle → f.fend = false ∧ f.counter = 0 ∧ m.fsm = .idle
  cnt : f.fsm = .counting → f.counter ≤ allowed ∧ f.fend = false
  mi : m.fsm = .idle → n = 0
  ms : m.fsm = .startMarker → n + m.counter = 8 ∧ (n ≤ fendAge allowed f ∨ f.fend = true)
  mf : m.fsm = .frame → m.counter = 8 ∧ (n ≤ fendAge allowed f ∨ (f.fend = true ∧ n ≤ 8))
  me : m.fsm = .endMarker → 1 ≤ m.counter ∧ m.counter ≤ 8 ∧ n + m.counter ≤ 8 + max 8 (allowed + 2)
  mo : m.fsm = .forceMarker → 1 ≤ m.counter ∧ m.counter ≤ 8 ∧ n + m.counter ≤ 8 + max 8 (allowed + 2)

theorem fendAge_le {allowed : Nat} {f : ForceEnd} (h : f.fsm = .counting → f.counter ≤ allowed) : fendAge allowed f ≤ allowed + 2 := by
  unfold fendAge
  split
  · omega
  · have := h ‹_›; omega
  · split <;> omega

theorem fendAge_step {allowed : Nat} (ha : allowed < 2 ^ 24) {f : ForceEnd} (h : f.fsm = .counting → f.counter ≤ allowed ∧ f.fend = false)
    (hi : f.fsm = .idle → f.fend = false ∧ f.counter = 0) (v : Bool) :
    fendAge allowed f ≤ fendAge allowed (f.step allowed v) ∧
    (f.fend = false → f.fsm ≠ .idle → fendAge allowed f + 1 ≤ fendAge allowed (f.step allowed v)) ∧
    (f.fend = true → (f.step allowed v).fend = true) ∧
    ((f.step allowed v).fsm = .idle → v = false ∧ f.fsm = .idle ∧ (f.step allowed v).fend = false ∧ (f.step allowed v).counter = 0) ∧
    ((f.step allowed v).fsm = .counting → (f.step allowed v).counter ≤ allowed ∧ (f.step allowed v).fend = false) := by
  obtain ⟨fs, n, fe⟩ := f
  cases fs
  · obtain ⟨h1, h2⟩ := hi rfl
    dsimp only at h1 h2
    subst h1 h2
    cases v <;> simp [ForceEnd.step, fendAge]
  · obtain ⟨h1, h2⟩ := h rfl
    dsimp only at h1 h2
    subst h2
    have hm : (n + 1) % 2 ^ 25 = n + 1 := Nat.mod_eq_of_lt (by omega)
    by_cases hn : n = allowed
    · simp [ForceEnd.step, fendAge, hn]
    · simp only [ForceEnd.step, hm, if_neg hn, fendAge]
      refine ⟨by omega, by simp, by simp, by simp, fun _ => ⟨by omega, trivial⟩⟩
  · cases fe <;> simp [ForceEnd.step, fendAge]

theorem cap_step {allowed : Nat} (ha : allowed < 2 ^ 24) {f : ForceEnd} {m : Markers} {n : Nat} (h : Cap allowed f m n) (i : MarkIn)
    (hi : i.force = f.fend) (v : Bool) (hv : (f.step allowed v).fsm = .idle → (m.step i).fsm = .idle)
    (hne : (m.out i).valid = true → i.busy = false → (m.out i).endd = false) :
    Cap allowed (f.step allowed v) (m.step i) (n + if (m.out i).valid && !i.busy then 1 else 0) := by
  obtain ⟨g1, g2, g3, g4, g5⟩ := fendAge_step ha h.cnt (fun hf => ⟨(h.idl hf).1, (h.idl hf).2.1⟩) v
  have g6 := fendAge_le (fun hf => (h.cnt hf).1)
  generalize hf' : f.step allowed v = f' at *
  refine ⟨fun hf => ⟨(g4 hf).2.2.1, (g4 hf).2.2.2, hv hf⟩, g5, ?_, ?_, ?_, ?_, ?_⟩
  all_goals clear g4 g5 hv
  all_goals
    have hidl : m.fsm ≠ .idle → f.fsm ≠ .idle := fun hm hf => hm (h.idl hf).2.2
    have mi := h.mi
    have ms := h.ms
    have mf := h.mf
    have me := h.me
    have mo := h.mo
    clear h
    obtain ⟨mfs, mc, mend⟩ := m
    obtain ⟨d, iv, ie, ifo, b⟩ := i
    dsimp only at hi mi ms mf me mo hidl
    subst hi
    cases mfs
  -- idle
  all_goals try (simp [Markers.step]; done)
  all_goals try (simp only [Markers.step]; (repeat' split) <;> simp <;> done)
  · cases iv <;> simp [Markers.step, Markers.out]
    exact mi rfl
  · have := mi rfl
    cases iv
    · simp [Markers.step]
    · simp [Markers.step, Markers.out, this]
  · obtain ⟨h1, h2⟩ := ms rfl
    have hs := hidl (by simp)
    have hd : mc ≠ 0 → Markers.dec mc = mc - 1 := by intro h; simp only [Markers.dec]; omega
    cases b
    · by_cases hc : mc = 0
      · simp [Markers.step, hc]
      · simp only [Markers.step, Markers.out, Bool.not_false, if_true, hc, if_false, decide_false, Bool.and_false, Bool.false_eq_true, Bool.and_self, hd hc]
        intro _
        refine ⟨by omega, ?_⟩
        rcases h2 with h2 | h2
        · cases hfe : f.fend with
          | true => exact Or.inr (g3 hfe)
          | false => have := g2 hfe hs; left; omega
        · exact Or.inr (g3 h2)
    · simp only [Markers.step, Markers.out, Bool.not_true, Bool.and_false, Bool.false_eq_true, if_false, Bool.false_and, Nat.add_zero]
      intro _
      refine ⟨h1, ?_⟩
      rcases h2 with h2 | h2
      · left; omega
      · exact Or.inr (g3 h2)
  · obtain ⟨h1, h2⟩ := ms rfl
    cases b
    · by_cases hc : mc = 0
      · subst hc
        simp only [Markers.step, Markers.out, Bool.not_false, if_true, decide_true, Bool.and_self, Bool.false_and, Bool.false_eq_true, if_false, Nat.add_zero]
        intro _
        refine ⟨trivial, ?_⟩
        rcases h2 with h2 | h2
        · left; omega
        · exact Or.inr ⟨g3 h2, by omega⟩
      · simp [Markers.step, hc]
    · simp [Markers.step]
  · obtain ⟨h1, h2⟩ := mf rfl
    have hs := hidl (by simp)
    intro hfr
    have hme : mend = false := by
      cases mend
      · rfl
      · simp [Markers.step] at hfr
    subst hme
    have hfe : f.fend = false := by
      cases hfe : f.fend
      · rfl
      · simp [Markers.step, hfe] at hfr
    simp only [Markers.step, Markers.out, hfe, Bool.false_eq_true, if_false, false_and, or_false] at h2 ⊢
    refine ⟨h1, ?_⟩
    have := g2 hfe hs
    left
    split <;> omega
  · obtain ⟨h1, h2, h3⟩ := me rfl
    have hd : Markers.dec mc = mc - 1 := by simp only [Markers.dec]; omega
    cases b
    · have hn : mc ≠ 1 := by
        intro hc; simp [Markers.out, hc] at hne
      simp only [Markers.step, Markers.out, Bool.not_false, if_true, Bool.and_self, hd]
      intro _
      refine ⟨by omega, by omega, by omega⟩
    · simp only [Markers.step, Markers.out, Bool.not_true, Bool.false_eq_true, if_false, Bool.and_false, Nat.add_zero]
      intro _
      exact ⟨h1, h2, h3⟩
  · obtain ⟨h1, h2⟩ := mf rfl
    intro hfr
    have hme : mend = true := by
      cases mend
      · simp only [Markers.step, Bool.false_eq_true, if_false] at hfr
        split at hfr <;> cases hfr
      · rfl
    subst hme
    simp only [Markers.step, Markers.out, if_true, Bool.false_and, Bool.false_eq_true, if_false, Nat.add_zero]
    refine ⟨by omega, by omega, ?_⟩
    omega
  · obtain ⟨h1, h2, h3⟩ := mo rfl
    have hd : Markers.dec mc = mc - 1 := by simp only [Markers.dec]; omega
    cases b
    · have hn : mc ≠ 1 := by
        intro hc; simp [Markers.out, hc] at hne
      simp only [Markers.step, Markers.out, Bool.not_false, if_true, Bool.and_self, hd]
      intro _
      refine ⟨by omega, by omega, by omega⟩
    · simp only [Markers.step, Markers.out, Bool.not_true, Bool.false_eq_true, if_false, Bool.and_false, Nat.add_zero]
      intro _
      exact ⟨h1, h2, h3⟩
  · obtain ⟨h1, h2⟩ := mf rfl
    intro hfr
    have hme : mend = false := by
      cases mend
      · rfl
      · simp [Markers.step] at hfr
    subst hme
    have hfe : f.fend = true := by
      cases hfe : f.fend
      · simp [Markers.step, hfe] at hfr
      · rfl
    simp only [Markers.step, Markers.out, hfe, Bool.false_eq_true, if_true, if_false, Bool.false_and, Nat.add_zero]
    refine ⟨by omega, by omega, ?_⟩
    omega

theorem cap_out {allowed : Nat} {f : ForceEnd} {m : Markers} {n : Nat} (h : Cap allowed f m n) {i : MarkIn}
    (hm : m.fsm ≠ .doneNormal) (hm' : m.fsm ≠ .doneForce) (he : (m.out i).endd = true) : n + 1 ≤ 8 + max 8 (allowed + 2) := by
  obtain ⟨ms, mc, me⟩ := m
  cases ms <;> simp only [Markers.out] at he
  case endMarker =>
    obtain ⟨a, b, d⟩ := h.me rfl
    dsimp only at a b d
    omega
  case forceMarker =>
    obtain ⟨a, b, d⟩ := h.mo rfl
    dsimp only at a b d
    omega
  case doneNormal => exact absurd rfl hm
  case doneForce => exact absurd rfl hm'
  all_goals (repeat' split at he) <;> simp_all

/-- While no pixel has been accepted the core has no word to give. -/
theorem core_quiet {c : CoreCfg} {T : Table} (h : CamSetup c T) {s : Cam} {D : List (Nat × Bool)} {P : List Packet} {M G : List (Nat × Bool)}
    {forced : Prop} (hi : Cam.Inv c T s [] D P M G forced) : s.core.valid = false := by
  obtain ⟨k, hc⟩ := hi.core
  have h1 := Int3.step_ok h.core.ok hc ⟨[], false, false⟩ (by simp)
  simp only [Bool.false_and, Bool.false_eq_true, if_false, List.append_nil, Bool.not_false, Bool.and_true] at h1
  cases hv : s.core.valid with
  | false => rfl
  | true =>
    exfalso
    rw [hv, if_pos rfl] at h1
    obtain ⟨f1, f2⟩ := Cam.core_facts h.core h1
    have hW : 0 < c.int1.W * c.int1.H := by
      refine Nat.pos_of_ne_zero fun h0 => ?_
      have := h.long [] (by rw [h0]; rfl)
      simp [encode] at this
    generalize hD : D ++ [(s.core.data, s.core.endd)] = D' at *
    cases D' with
    | nil => simp at hD
    | cons x D' =>
      cases hx : x.2 with
      | true =>
        have := (f2 x.1 (by rw [← hx]; simp)).1
        simp at this; omega
      | false =>
        have := f1.length_le
        simp [beforeEnd, hx, wordBits, encode, h.out, toBits_length] at this

theorem nothingOut_step {c : CoreCfg} {s : Cam} (h : NothingOut s) (hv : s.core.valid = false) (allowed : Nat) (i : CamIn) : NothingOut (s.betaRun c allowed i) := by
  obtain ⟨h1, h2, h3, h4, h5⟩ := h
  have hb : s.fix2.oBusy = false := by rw [h4]; rfl
  refine ⟨?_, ?_, ?_, ?_, ?_⟩
  · simp [Cam.betaRun, Fix1.step, Fix1.main, hb, h1]
  · simp [Cam.betaRun, Fix1.step, Fix1.main, hb, h1]
  · simp [Cam.betaRun, Fix1.step, Fix1.main, hb, h1, h2, hv]
  · have ho : (s.out i.busy).oBusy = true := by simp [Cam.out, Markers.out, h5]
    simp only [Cam.betaRun, h3, h4, ho]
    rfl
  · simp [Cam.betaRun, Markers.step, h5, Cam.markIn, h4, Fix2.init]

/-- Everything known about a run without an end. -/
theorem cap_run {c : CoreCfg} {T : Table} (h : CamSetup c T) {allowed : Nat} (ha : allowed < 2 ^ 24) {s : Cam} (hs : CamAfterReset c s) :
    ∀ (n : Nat) (ins : List CamIn), ins.length = n → CamWf c ins → (∀ x ∈ camGiven c allowed s ins, x.2 = false) →
    Cap allowed (camRun c allowed s ins).fend (camRun c allowed s ins).marks (camGiven c allowed s ins).length ∧
    ((camRun c allowed s ins).fend.fsm = .idle → camAccepted c allowed s ins = [] ∧ NothingOut (camRun c allowed s ins))
  | 0, ins, hn, _, _ => by
    rw [List.length_eq_zero_iff] at hn; subst hn
    obtain ⟨m, _, rfl⟩ := hs
    refine ⟨?_, fun _ => ⟨rfl, rfl, rfl, rfl, rfl, rfl⟩⟩
    constructor <;> simp [camRun, camGiven, Cam.reset, ForceEnd.init, Markers.init]
  | n + 1, ins, hn, hwf, hno => by
    obtain ⟨l, i, rfl⟩ : ∃ l i, ins = l ++ [i] := ⟨_, _, (List.dropLast_concat_getLast (l := ins) (by intro h; simp [h] at hn)).symm⟩
    have hnol : ∀ x ∈ camGiven c allowed s l, x.2 = false := fun x hx => hno x (by rw [camGiven_append]; exact List.mem_append_left _ hx)
    have hwfl : CamWf c l := fun j hj => hwf j (List.mem_append_left _ hj)
    obtain ⟨h1, h2⟩ := cap_run h ha hs n l (by simpa using hn) hwfl hnol
    obtain ⟨m, hm, rfl⟩ := hs
    obtain ⟨⟨D, P, M, forced, hinv⟩, hr⟩ := frame_run h allowed l (Cam.inv_reset h.core hm) rfl hwfl hnol
    rw [camGiven_append] at hno ⊢
    have hlast := fun x hx => hno x (List.mem_append_right _ hx)
    rw [camRun_append, camAccepted_append]
    rw [List.nil_append] at hinv
    generalize camRun c allowed (Cam.reset c m) l = s at *
    generalize camAccepted c allowed (Cam.reset c m) l = acc at *
    generalize camGiven c allowed (Cam.reset c m) l = G at *
    simp only [camGiven, camRun, camAccepted, List.append_nil] at hlast ⊢
    have hstep : s.betaStep c allowed i = s.betaRun c allowed i := by simp [Cam.betaStep, hr]
    rw [hstep]
    have hidle : (s.betaRun c allowed i).fend.fsm = .idle →
        (acc ++ if (i.valid && !s.nready) = true then i.pixels else []) = [] ∧ NothingOut (s.betaRun c allowed i) := by
      intro hf
      have g4 := (fendAge_step ha h1.cnt (fun hf => ⟨(h1.idl hf).1, (h1.idl hf).2.1⟩) (i.valid && !s.core.nready)).2.2.2.1 hf
      obtain ⟨rfl, q⟩ := h2 g4.2.1
      refine ⟨?_, nothingOut_step q (core_quiet h hinv) allowed i⟩
      have : (i.valid && !s.nready) = false := g4.1
      rw [this]; rfl
    refine ⟨?_, hidle⟩
    have := cap_step ha h1 (s.markIn i.busy) rfl (i.valid && !s.core.nready) (fun hf => (hidle hf).2.2.2.2.2) (by
      intro hv hb
      have hb' : i.busy = false := hb
      have := hlast ((s.out i.busy).data, (s.out i.busy).endd) (by
        have hv' : (s.out i.busy).valid = true := hv
        rw [hv', hb']; simp)
      exact this)
    have e : (G ++ if ((s.out i.busy).valid && !i.busy) = true then [((s.out i.busy).data, (s.out i.busy).endd)] else []).length =
        G.length + if ((s.out i.busy).valid && !i.busy) = true then 1 else 0 := by
      rw [List.length_append]; split <;> rfl
    rw [e]
    exact this

/-- C65: a frame of the beta core, ended normally or by force, has at most `allowed + 10` words, its 16 marker words included (16 if
the budget is below 6). -/
theorem C65_every_frame_fits {c : CoreCfg} {T : Table} (h : CamSetup c T) {allowed : Nat} (ha : allowed < 2 ^ 24) {s : Cam} (hs : CamAfterReset c s)
    (ins : List CamIn) (i : CamIn) (hwf : CamWf c (ins ++ [i])) (hno : ∀ x ∈ camGiven c allowed s ins, x.2 = false)
    {w : Nat} (hw : (w, true) ∈ camGiven c allowed s (ins ++ [i])) :
    (camGiven c allowed s (ins ++ [i])).length ≤ max 16 (allowed + 10) := by
  have hwfl : CamWf c ins := fun j hj => hwf j (List.mem_append_left _ hj)
  have hcap := (cap_run h ha hs _ ins rfl hwfl hno).1
  have hlen : (camGiven c allowed s (ins ++ [i])).length ≤ 8 + max 8 (allowed + 2) := by
    obtain ⟨m, hm, hse⟩ := hs
    obtain ⟨⟨D, P, M, forced, hinv⟩, hr⟩ := frame_run h allowed ins (s := s) (by rw [hse]; exact Cam.inv_reset h.core hm) (by rw [hse]; rfl) hwfl hno
    rw [List.nil_append, List.nil_append] at hinv
    have hmk := hinv.marks
    have hnd : (camRun c allowed s ins).marks.fsm ≠ .doneNormal := by
      intro hd
      unfold Markers.Inv at hmk
      rw [hd] at hmk
      obtain ⟨_, n, hG⟩ := hmk
      have := hno (0xFFFF, true) (by rw [hG]; simp)
      cases this
    have hnf : (camRun c allowed s ins).marks.fsm ≠ .doneForce := by
      intro hd
      unfold Markers.Inv at hmk
      rw [hd] at hmk
      obtain ⟨_, _, n, hG⟩ := hmk
      have := hno (0xFFFE, true) (by rw [hG]; simp)
      cases this
    rw [camGiven_append] at hw ⊢
    rcases List.mem_append.1 hw with hw | hw
    · have := hno _ hw; cases this
    · simp only [camGiven, List.append_nil] at hw ⊢
      split at hw
      · rename_i hg
        have e := List.mem_singleton.1 hw
        rw [Prod.mk.injEq] at e
        have := cap_out hcap hnd hnf e.2.symm
        rw [if_pos hg, List.length_append]
        exact this
      · cases hw
  omega

/-- C65: a frame of the beta core that ends normally has at most `allowed - 6` data words ... -/
theorem C65_normal_end_fits {c : CoreCfg} {T : Table} (h : CamSetup c T) {allowed : Nat} (ha : allowed < 2 ^ 24) {s : Cam} (hs : CamAfterReset c s)
    (ins : List CamIn) (i : CamIn) (hwf : CamWf c (ins ++ [i])) (hno : ∀ x ∈ camGiven c allowed s ins, x.2 = false)
    (hw : (0xFFFF, true) ∈ camGiven c allowed s (ins ++ [i])) :
    ∃ body, camGiven c allowed s (ins ++ [i]) = startMark ++ body ++ endMark 0xFFFF ∧ body.length ≤ allowed - 6 ∧
      (encode T c.int1.bd c.int1.W (camAccepted c allowed s (ins ++ [i]))).length ≤ 16 * (allowed - 6) := by
  obtain ⟨body, e1, _, e3⟩ := C30_frame h allowed hs ins i hwf hno 0xFFFF hw
  have hlen := C65_every_frame_fits h ha hs ins i hwf hno hw
  have hb : body.length ≤ allowed - 6 := by
    rw [e1] at hlen
    simp only [List.length_append, startMark, endMark, List.length_replicate, List.length_cons, List.length_nil] at hlen
    omega
  refine ⟨body, e1, hb, ?_⟩
  rcases e3 with ⟨_, _, bytes, k, j, hk, hj, hb1, hb2⟩ | ⟨hx, _⟩
  · have a1 := congrArg List.length hb1
    have a2 := congrArg List.length hb2
    have a3 := stuff_length_ge bytes
    rw [wordBytes_length, List.length_append, List.length_replicate] at a1
    have a4 : (byteBits bytes).length = 8 * bytes.length := by
      clear a1 a2 a3 hb1 hb2
      induction bytes with
      | nil => rfl
      | cons b l ih =>
        simp only [byteBits, List.flatMap_cons, List.length_append, List.length_cons, toBits_length] at ih ⊢
        rw [ih]; omega
    rw [List.length_append, List.length_replicate] at a2
    omega
  · simp at hx

/-- C65: so a frame whose code has more than `16 * (allowed - 6)` bits ends by force, with the marker FFFE, whatever the
schedule. -/
theorem C65_too_long_is_forced {c : CoreCfg} {T : Table} (h : CamSetup c T) {allowed : Nat} (ha : allowed < 2 ^ 24) {s : Cam} (hs : CamAfterReset c s)
    (ins : List CamIn) (i : CamIn) (hwf : CamWf c (ins ++ [i])) (hno : ∀ x ∈ camGiven c allowed s ins, x.2 = false)
    {image : List Nat} (himg : image.length = c.int1.W * c.int1.H)
    (hbig : 16 * (allowed - 6) < (encode T c.int1.bd c.int1.W image).length)
    (hacc : camAccepted c allowed s (ins ++ [i]) <+: image) {w : Nat} (hw : (w, true) ∈ camGiven c allowed s (ins ++ [i])) : w = 0xFFFE := by
  obtain ⟨body, _, _, e3⟩ := C30_frame h allowed hs ins i hwf hno w hw
  rcases e3 with ⟨rfl, hl, _⟩ | ⟨rfl, _⟩
  · exfalso
    obtain ⟨_, _, _, hfit⟩ := C65_normal_end_fits h ha hs ins i hwf hno hw
    rw [hacc.eq_of_length (by rw [hl, himg])] at hfit
    omega
  · rfl

/-! ### The shipped configuration -/

/-- Blocks of four black and four white pixels, shifted by four in every other row. -/
def checker (n : Nat) : List Nat := (List.range n).map fun i => if (i / 4 + i / 4096) % 2 = 0 then 0 else 4095

theorem checker_getD {n i : Nat} (hi : i < n) : (checker n).getD i 0 = if (i / 4 + i / 4096) % 2 = 0 then 0 else 4095 := by
  unfold checker
  rw [List.getD_eq_getElem?_getD, List.getElem?_map, List.getElem?_range hi]; rfl

theorem checker_bits {n i : Nat} (hi : i < n) : (pixelBits defaultTable ((checker n).getD i 0) (pred 12 4096 (checker n) i)).length = 21 := by
  have hp : pred 12 4096 (checker n) i = 2048 ∧ (checker n).getD i 0 = 0 ∨ ((pred 12 4096 (checker n) i = 0 ∧ (checker n).getD i 0 = 4095) ∨
      (pred 12 4096 (checker n) i = 4095 ∧ (checker n).getD i 0 = 0)) := by
    unfold pred
    rw [checker_getD hi]
    by_cases h1 : i % 4096 < 4
    · rw [if_pos h1]
      by_cases h2 : i < 4096
      · rw [if_pos h2]; left; exact ⟨rfl, by rw [if_pos]; omega⟩
      · rw [if_neg h2, checker_getD (by omega)]
        right
        by_cases h3 : (i / 4 + i / 4096) % 2 = 0
        · right; rw [if_pos h3, if_neg (by omega)]; exact ⟨rfl, rfl⟩
        · left; rw [if_neg h3, if_pos (by omega)]; exact ⟨rfl, rfl⟩
    · rw [if_neg h1, checker_getD (by omega)]
      right
      by_cases h3 : (i / 4 + i / 4096) % 2 = 0
      · right; rw [if_pos h3, if_neg (by omega)]; exact ⟨rfl, rfl⟩
      · left; rw [if_neg h3, if_pos (by omega)]; exact ⟨rfl, rfl⟩
  rcases hp with ⟨h1, h2⟩ | ⟨h1, h2⟩ | ⟨h1, h2⟩ <;> rw [h1, h2] <;> decide +kernel

theorem flatMap_const {f : Nat → List Bool} {k : Nat} : ∀ n, (∀ i, i < n → (f i).length = k) → ((List.range n).flatMap f).length = k * n
  | 0, _ => by simp
  | n + 1, h => by
    rw [List.range_succ, List.flatMap_append, List.length_append, flatMap_const n (fun i hi => h i (by omega))]
    simp only [List.flatMap_cons, List.flatMap_nil, List.append_nil, h n (by omega)]
    rw [Nat.mul_succ]

theorem checker_length (n : Nat) : (encode defaultTable 12 4096 (checker n)).length = 21 * n := by
  unfold encode
  have : (checker n).length = n := by simp [checker]
  rw [this]
  exact flatMap_const n fun i hi => checker_bits hi

/-- C65, a limit of the shipped configuration (4096 x 3072, budget 6666000): the image of black and white blocks of four
pixels is ended by force in every schedule, even with an ever-ready receiver. -/
theorem C65_shipped_limit {s : Cam} (hs : CamAfterReset betaCore s) (ins : List CamIn) (i : CamIn) (hwf : CamWf betaCore (ins ++ [i]))
    (hno : ∀ x ∈ camGiven betaCore 6666000 s ins, x.2 = false)
    (hacc : camAccepted betaCore 6666000 s (ins ++ [i]) <+: checker (4096 * 3072)) {w : Nat}
    (hw : (w, true) ∈ camGiven betaCore 6666000 s (ins ++ [i])) : w = 0xFFFE :=
  C65_too_long_is_forced (c := betaCore) (T := defaultTable) ⟨default_setup (by decide) rfl, rfl, default_long _ (by decide)⟩ (by decide) hs ins i hwf hno
    (image := checker (4096 * 3072)) (by simp [checker, betaCore]) (by
      show _ < (encode defaultTable 12 4096 (checker (4096 * 3072))).length
      rw [checker_length]; decide) hacc hw


/-! ### The hypotheses can be met -/

set_option maxRecDepth 40000 in
example : (∀ x ∈ camGiven tinyCam 1000 (Cam.init tinyCam) tinyCamIns, x.2 = false) ∧
    (0xFFFF, true) ∈ camGiven tinyCam 1000 (Cam.init tinyCam) (tinyCamIns ++ [⟨[5], true, false⟩]) ∧
    (camGiven tinyCam 1000 (Cam.init tinyCam) (tinyCamIns ++ [⟨[5], true, false⟩])).length = 19 := by decide +kernel

set_option maxRecDepth 40000 in
example : 16 * (7 - 6) < (encode defaultTable 4 4 [5, 5, 5, 5, 5, 5, 5, 5]).length ∧
    (∀ x ∈ camGiven tinyCam 7 (Cam.init tinyCam) (List.replicate 46 ⟨[5], true, false⟩), x.2 = false) ∧
    camAccepted tinyCam 7 (Cam.init tinyCam) (List.replicate 47 ⟨[5], true, false⟩) = [5, 5, 5, 5, 5, 5, 5, 5] ∧
    (0xFFFE, true) ∈ camGiven tinyCam 7 (Cam.init tinyCam) (List.replicate 46 ⟨[5], true, false⟩ ++ [⟨[5], true, false⟩]) := by
  decide +kernel

/-- Offer of pixels `2k`, `2k+1` of an image to a ready receiver's core. -/
def offer (img : Nat → Nat) (k : Nat) : CamIn := ⟨[img (2 * k), img (2 * k + 1)], true, false⟩

/-- The shipped core and the number of groups accepted, when each group is offered until it is accepted. -/
def feed (img : Nat → Nat) : Nat → Cam × Nat
  | 0 => (Cam.init betaCore, 0)
  | t + 1 => ((feed img t).1.betaStep betaCore 6666000 (offer img (feed img t).2), if (feed img t).1.nready then (feed img t).2 else (feed img t).2 + 1)

theorem feed_at (img : Nat → Nat) (t : Nat) :
    camAt betaCore 6666000 (Cam.init betaCore) (fun t => offer img (feed img t).2) t = (feed img t).1 := by
  induction t with
  | zero => rfl
  | succ t ih => simp only [camAt, ih, feed]

theorem feed_accepted (img : Nat → Nat) (t : Nat) :
    camAccepted betaCore 6666000 (Cam.init betaCore) ((List.range t).map fun t => offer img (feed img t).2) = (List.range (2 * (feed img t).2)).map img := by
  induction t with
  | zero => rfl
  | succ t ih =>
    rw [List.range_succ, List.map_append, camAccepted_append, ih, ← camAt_run, feed_at]
    simp only [List.map_cons, List.map_nil, camAccepted, List.append_nil, feed, offer, Bool.true_and]
    cases (feed img t).1.nready
    · simp only [Bool.not_false, if_true, Bool.false_eq_true, if_false]
      rw [show 2 * ((feed img t).2 + 1) = 2 * (feed img t).2 + 1 + 1 by omega, List.range_succ, List.range_succ]
      simp
    · simp

theorem least {P : Nat → Prop} (h : ∃ t, P t) : ∃ t, P t ∧ ∀ k, k < t → ¬ P k := by
  obtain ⟨t, ht⟩ := h
  induction t using Nat.strongRecOn with
  | ind t ih =>
    by_cases hk : ∃ k, k < t ∧ P k
    · obtain ⟨k, hk, hp⟩ := hk; exact ih k hk hp
    · exact ⟨t, ht, fun k hkt hp => hk ⟨k, hkt, hp⟩⟩

/-- C65, the shipped limit does occur: a producer that offers the image as fast as the core takes it, and a receiver that is
always ready, get a forced end. -/
theorem C65_shipped_limit_occurs : ∃ ins i, CamWf betaCore (ins ++ [i]) ∧ (∀ j ∈ ins ++ [i], j.valid = true ∧ j.busy = false) ∧
    (∀ x ∈ camGiven betaCore 6666000 (Cam.init betaCore) ins, x.2 = false) ∧
    camAccepted betaCore 6666000 (Cam.init betaCore) (ins ++ [i]) <+: checker (4096 * 3072) ∧
    (0xFFFE, true) ∈ camGiven betaCore 6666000 (Cam.init betaCore) (ins ++ [i]) := by
  let img : Nat → Nat := fun i => if (i / 4 + i / 4096) % 2 = 0 then 0 else 4095
  let u : Nat → CamIn := fun t => offer img (feed img t).2
  have hset : CamSetup betaCore defaultTable := ⟨default_setup (by decide) rfl, rfl, default_long _ (by decide)⟩
  have himg : ∀ k, img k < 4096 := by intro k; show (if _ then _ else _) < _; split <;> decide
  have hwf : ∀ t, (u t).valid = true → (u t).pixels.length = betaCore.int1.ps ∧ ∀ x ∈ (u t).pixels, x < 2 ^ betaCore.int1.bd := by
    intro t _
    refine ⟨rfl, ?_⟩
    intro x hx
    simp only [u, offer, List.mem_cons, List.not_mem_nil, or_false] at hx
    show x < 4096
    rcases hx with rfl | rfl <;> exact himg _
  have hend := C50_always_ends hset (allowed := 6666000) (by decide) (init_afterReset _) u hwf (fun n => ⟨n, Nat.le_refl _, rfl⟩) (fun n => ⟨n, Nat.le_refl _, rfl⟩)
  obtain ⟨t, ⟨w, hw⟩, hmin⟩ := least hend
  cases t with
  | zero => simp [camGiven] at hw
  | succ t =>
    have hno : ∀ x ∈ camGiven betaCore 6666000 (Cam.init betaCore) ((List.range t).map u), x.2 = false := by
      intro x hx
      cases he : x.2 with
      | false => rfl
      | true => exact absurd ⟨x.1, by rw [← he]; exact hx⟩ (hmin t (by omega))
    have happ : (List.range (t + 1)).map u = (List.range t).map u ++ [u t] := by rw [List.range_succ, List.map_append]; rfl
    have hmem : ∀ j ∈ (List.range t).map u ++ [u t], ∃ k, j = u k := by
      intro j hj
      rw [← happ] at hj
      obtain ⟨k, _, rfl⟩ := List.mem_map.1 hj
      exact ⟨k, rfl⟩
    have hwf' : CamWf betaCore ((List.range t).map u ++ [u t]) := by
      intro j hj
      obtain ⟨k, rfl⟩ := hmem j hj
      exact hwf k
    have hacc : camAccepted betaCore 6666000 (Cam.init betaCore) ((List.range t).map u ++ [u t]) <+: checker (4096 * 3072) := by
      obtain ⟨D, P, M, forced, hi⟩ := frame_run_last hset 6666000 ((List.range t).map u) (u t) (init_afterReset _) hwf' hno
      obtain ⟨k, hc⟩ := hi.core
      have hlen := Int3.inv_len hc
      obtain ⟨its, recv, h1, h2⟩ := hc
      have hle : (camAccepted betaCore 6666000 (Cam.init betaCore) ((List.range t).map u ++ [u t])).length ≤ 4096 * 3072 := by
        have := h1.kle
        rw [hlen]
        have e : betaCore.int1.W / betaCore.int1.ps * betaCore.int1.H = 2048 * 3072 := by decide
        have e2 : betaCore.int1.ps = 2 := rfl
        rw [e] at this
        rw [e2]
        omega
      rw [← happ] at hle ⊢
      have e := feed_accepted img (t + 1)
      have e' : camAccepted betaCore 6666000 (Cam.init betaCore) ((List.range (t + 1)).map u) = (List.range (2 * (feed img (t + 1)).2)).map img := e
      rw [e'] at hle ⊢
      rw [List.length_map, List.length_range] at hle
      have hpre : List.range (2 * (feed img (t + 1)).2) <+: List.range (4096 * 3072) := by
        generalize 2 * (feed img (t + 1)).2 = a at hle
        have : List.range (4096 * 3072) = List.range (a + (4096 * 3072 - a)) := by congr 1; omega
        rw [this, List.range_add]
        exact List.prefix_append ..
      exact hpre.map img
    rw [happ] at hw
    have := C65_shipped_limit (init_afterReset _) _ _ hwf' hno hacc hw
    subst this
    refine ⟨_, _, hwf', ?_, hno, hacc, hw⟩
    intro j hj
    obtain ⟨k, rfl⟩ := hmem j hj
    exact ⟨rfl, rfl⟩

end Props
