/- Property theorems C99: the full-AXI core: frames ended normally or by force, and what a frame leaves in the memory. -/
import Verif.Props.AnyFrames
import Verif.Props.HostCheck
import Verif.Props.NetFull
import Verif.Props.Size

set_option autoImplicit false

namespace Props.FullFrames
open Spec Model Props
open Props.Size (AtLeast default_atLeast diffBits_length)

/-! ### What a part of the data between the markers decodes to -/

theorem code_ne_nil {T : Table} {n : Nat} (hT : PrefixFree T n) (hn : 2 ≤ n) {s : Nat} (hs : s < n) : T s ≠ [] := by
  intro h
  by_cases h0 : s = 0
  · have := hT s 1 hs (by omega) (by rw [h]; exact List.nil_prefix); omega
  · have := hT s 0 hs (by omega) (by rw [h]; exact List.nil_prefix); omega

/-- The code of more pixels is longer. -/
theorem encode_longer {T : Table} {bd W : Nat} (hT : PrefixFree T (bd + 1)) (hbd : 1 ≤ bd) (hW : 4 ≤ W) (acc : List Nat) (x : Nat)
    (more : List Nat) (hx : x < 2 ^ bd) (ha : ∀ y ∈ acc, y < 2 ^ bd) :
    (encode T bd W acc).length < (encode T bd W (acc ++ x :: more)).length := by
  rw [encode_append hW, encodeFrom, List.length_append, List.length_append, pixelBits, diffBits, List.length_append]
  have hp : pred bd W acc acc.length < 2 ^ bd := pred_lt hbd ha _
  have hc : cls ((x : Int) - (pred bd W acc acc.length : Nat)) ≤ bd := cls_le (by omega)
  have := List.length_pos_iff.2 (code_ne_nil hT (by omega) (s := cls ((x : Int) - (pred bd W acc acc.length : Nat))) (by omega))
  omega

/-- If data begin like the code of `acc` (with padding only behind the code of a whole frame of `N` pixels), then they decode to
the first `k ≤ N` pixels of every longer list whose code fits into them. -/
theorem decode_begin {T : Table} {bd W N : Nat} (hT : PrefixFree T (bd + 1)) (hbd : 2 ≤ bd) (hbd15 : bd ≤ 15) (hW : 4 ≤ W)
    {acc pixels : List Nat} (hpix : acc <+: pixels) (hlt : ∀ x ∈ pixels, x < 2 ^ bd) {data : List Bool} {j : Nat}
    (hd : data <+: encode T bd W acc ++ List.replicate j false) (hj : acc.length = N ∨ j = 0) {k : Nat} (hkN : k ≤ N)
    (hk : k ≤ pixels.length) (hfit : (encode T bd W (pixels.take k)).length ≤ data.length) :
    encode T bd W (pixels.take k) <+: data ∧ ∃ rest, decode T (bd + 1) bd W k [] data = some (pixels.take k, rest) := by
  obtain ⟨more, rfl⟩ := hpix
  have hka : k ≤ acc.length := by
    apply Nat.le_of_not_lt
    intro hka
    rcases hj with hj | rfl
    · omega
    · rw [List.take_append, List.take_of_length_le (by omega)] at hfit
      have hl := hd.length_le
      rw [List.length_append, List.length_replicate] at hl
      cases hm : more.take (k - acc.length) with
      | nil =>
        have := congrArg List.length hm
        rw [List.length_take, List.length_nil] at this
        rw [List.length_append] at hk
        omega
      | cons x m =>
        rw [hm] at hfit
        have := encode_longer hT (by omega) hW acc x m
          (hlt x (List.mem_append_right _ (List.mem_of_mem_take (by rw [hm]; exact List.mem_cons_self ..))))
          (fun y hy => hlt y (List.mem_append_left _ hy))
        omega
  rw [List.take_append_of_le_length hka] at hfit ⊢
  have henc : encode T bd W (acc.take k) <+: encode T bd W acc ++ List.replicate j false := by
    have := encode_append (T := T) (bd := bd) hW (acc.drop k) (acc.take k)
    rw [List.take_append_drop] at this
    rw [this, List.append_assoc]
    exact List.prefix_append _ _
  obtain ⟨pad, hpad⟩ := List.prefix_of_prefix_length_le henc hd hfit
  refine ⟨⟨pad, hpad⟩, pad, ?_⟩
  have := decode_encode hT (n := bd + 1) (by omega) (by omega) hbd15 hW (acc.take k)
    (fun x hx => hlt x (List.mem_append_left _ (List.mem_of_mem_take hx))) pad
  rw [hpad, List.length_take, Nat.min_eq_left hka] at this
  exact this

/-- The words of a frame, ended normally or by force: markers around a body, every part of which from its begin on decodes to as
many pixels as have their codes in it. -/
theorem frame_data {c : CoreCfg} {T : Table} (h : CamSetup c T) (hbd : c.int1.bd ≤ 15) (allowed : Nat) {s : Cam}
    (hs : CamAfterReset c s) (ins : List CamIn) (i : CamIn) (hwf : CamWf c (ins ++ [i]))
    (hno : ∀ x ∈ camGiven c allowed s ins, x.2 = false) {w : Nat} (hw : (w, true) ∈ camGiven c allowed s (ins ++ [i])) :
    ∃ body, camGiven c allowed s (ins ++ [i]) = startMark ++ body ++ endMark w ∧ (∃ bytes, wordBytes body <+: stuff bytes) ∧
      (w = 0xFFFF → (camAccepted c allowed s (ins ++ [i])).length = c.int1.W * c.int1.H ∧
        (encode T c.int1.bd c.int1.W (camAccepted c allowed s (ins ++ [i]))).length ≤ (byteBits (unstuff (wordBytes body))).length) ∧
      ∀ pixels, camAccepted c allowed s (ins ++ [i]) <+: pixels → (∀ x ∈ pixels, x < 2 ^ c.int1.bd) →
      ∀ part, part <+: body → ∀ k, k ≤ c.int1.W * c.int1.H → k ≤ pixels.length →
        (encode T c.int1.bd c.int1.W (pixels.take k)).length ≤ (byteBits (unstuff (wordBytes part))).length →
        encode T c.int1.bd c.int1.W (pixels.take k) <+: byteBits (unstuff (wordBytes part)) ∧
        ∃ rest, decode T (c.int1.bd + 1) c.int1.bd c.int1.W k [] (byteBits (unstuff (wordBytes part))) =
          some (pixels.take k, rest) := by
  obtain ⟨body, hg, _, hb⟩ := C30_frame h allowed hs ins i hwf hno w hw
  refine ⟨body, hg, ?_, ?_, ?_⟩
  · rcases hb with ⟨_, _, bytes, kk, _, hkk, _, hb1, _⟩ | ⟨_, bytes, hp, _⟩
    · refine ⟨bytes ++ List.replicate kk 0, ?_⟩
      rw [hb1]
      rcases Nat.le_one_iff_eq_zero_or_eq_one.1 hkk with rfl | rfl
      · simp
      · rw [stuff_append]; simp [stuff]
    · exact ⟨bytes, hp⟩
  · rintro rfl
    rcases hb with ⟨_, hl, bytes, kk, j, hkk, _, hb1, hb2⟩ | ⟨hx, _⟩
    · refine ⟨hl, ?_⟩
      rw [hb1, unstuff_stuff_append]
      have : byteBits (bytes ++ unstuff (List.replicate kk 0)) = byteBits bytes ++ byteBits (unstuff (List.replicate kk 0)) := by
        simp [byteBits]
      rw [this, hb2, List.length_append, List.length_append]
      omega
    · simp at hx
  intro pixels hpix hlt part hpart k hkN hk hfit
  have hbyte : ∀ {a b : List Nat}, a <+: b → byteBits a <+: byteBits b := by
    rintro a b ⟨t, rfl⟩
    exact ⟨byteBits t, by simp [byteBits]⟩
  have hpre : byteBits (unstuff (wordBytes part)) <+: byteBits (unstuff (wordBytes body)) := by
    obtain ⟨t, rfl⟩ := hpart
    rw [Fix2.wordBytes_append]
    exact hbyte (unstuff_prefix _ _)
  have hdata : ∃ j, byteBits (unstuff (wordBytes body)) <+:
      encode T c.int1.bd c.int1.W (camAccepted c allowed s (ins ++ [i])) ++ List.replicate j false ∧
      ((camAccepted c allowed s (ins ++ [i])).length = c.int1.W * c.int1.H ∨ j = 0) := by
    rcases hb with ⟨_, hl, bytes, kk, j, hkk, _, hb1, hb2⟩ | ⟨_, bytes, hp, hb2⟩
    · refine ⟨j + 8 * kk, ?_, .inl hl⟩
      rw [hb1, unstuff_stuff_append]
      have hz : byteBits (unstuff (List.replicate kk 0)) = List.replicate (8 * kk) false := by
        rcases Nat.le_one_iff_eq_zero_or_eq_one.1 hkk with rfl | rfl <;> rfl
      have : byteBits (bytes ++ unstuff (List.replicate kk 0)) = byteBits bytes ++ byteBits (unstuff (List.replicate kk 0)) := by
        simp [byteBits]
      rw [this, hz, hb2, List.append_assoc, List.replicate_append_replicate]
      exact List.prefix_refl _
    · have hby := hbyte (Forced.unstuff_prefix bytes _ hp)
      rcases hb2 with hb2 | ⟨hl, j, _, hb2⟩
      · exact ⟨0, by simpa using hby.trans hb2, .inr rfl⟩
      · exact ⟨j, by rw [← hb2]; exact hby, .inl hl⟩
  obtain ⟨j, hd, hj⟩ := hdata
  exact decode_begin h.core.table h.core.legal.frame.bd2 hbd h.core.legal.frame.W4 hpix hlt (hpre.trans hd) hj hkN hk hfit

/-! ### The frame -/

section
variable {c : CoreCfg} {a : Nat}

theorem beatPixels_lt {l : List Nat} : ∀ x ∈ l.flatMap beatPixels, x < 2 ^ 12 := by
  intro x hx
  obtain ⟨w, _, hx⟩ := List.mem_flatMap.1 hx
  simp only [beatPixels, List.mem_cons, List.not_mem_nil, or_false] at hx
  rcases hx with rfl | rfl | rfl | rfl <;> exact Nat.mod_lt _ (by decide)

theorem full_frame_data {T : Table} (h : CamSetup c T) (hps : c.int1.ps = 2) (hbd : c.int1.bd = 12) {s : FullAxi}
    (hs : FullAfterReset c s) (ins : List FullIn) (i : FullIn) (hsl : ReadSlave c a 0 s (ins ++ [i]))
    (hd : ∀ j ∈ ins ++ [i], j.rdata < 2 ^ 64) (hno : ∀ x ∈ coreWords c a s ins, x.2 = false) {w : Nat}
    (hw : (w, true) ∈ coreWords c a s (ins ++ [i])) :
    ∃ body, coreWords c a s (ins ++ [i]) = startMark ++ body ++ endMark w ∧ (∃ bytes, wordBytes body <+: stuff bytes) ∧
      (w = 0xFFFF → c.int1.W * c.int1.H ≤ ((readBeats c a s (ins ++ [i])).flatMap beatPixels).length ∧
        (encode T 12 c.int1.W (((readBeats c a s (ins ++ [i])).flatMap beatPixels).take (c.int1.W * c.int1.H))).length ≤
          (byteBits (unstuff (wordBytes body))).length) ∧
      ∀ part, part <+: body → ∀ k, k ≤ c.int1.W * c.int1.H →
        k ≤ ((readBeats c a s (ins ++ [i])).flatMap beatPixels).length →
        (encode T 12 c.int1.W (((readBeats c a s (ins ++ [i])).flatMap beatPixels).take k)).length ≤
          (byteBits (unstuff (wordBytes part))).length →
        encode T 12 c.int1.W (((readBeats c a s (ins ++ [i])).flatMap beatPixels).take k) <+: byteBits (unstuff (wordBytes part)) ∧
        ∃ rest, decode T 13 12 c.int1.W k [] (byteBits (unstuff (wordBytes part))) =
          some (((readBeats c a s (ins ++ [i])).flatMap beatPixels).take k, rest) := by
  obtain ⟨n1, n2⟩ := noReset_of ins (afterReset_resetOut hs) hno
  have hnr := noReset_append ins [i] n1 ⟨n2, trivial⟩
  have hp := fa_read hs (ins ++ [i]) hnr hsl hd
  have e := observe_append (c := c) (a := a) cIn ins [i] s
  have hwf := cIn_wf (a := a) hps hbd (ins ++ [i]) s
  rw [cam_words] at hw hno
  rw [e] at hw hwf hp
  obtain ⟨body, hg, hst, hn, hb⟩ := frame_data h (by omega) a hs.cam _ _ hwf hno hw
  refine ⟨body, by rw [cam_words, e]; exact hg, hst, ?_, ?_⟩
  · intro hx
    obtain ⟨h1, h2⟩ := hn hx
    have hp' : camAccepted c a s.cam (observe c a cIn s ins ++ [cIn (fullRun c a s ins) i]) <+:
        (readBeats c a s (ins ++ [i])).flatMap beatPixels := hp
    have htake := List.prefix_iff_eq_take.1 hp'
    rw [h1] at htake
    rw [hbd] at h2
    rw [← htake]
    exact ⟨h1 ▸ hp'.length_le, h2⟩
  intro part hpart k hkN hk hfit
  have := hb _ hp (by rw [hbd]; exact beatPixels_lt) part hpart k hkN hk
  rw [hbd] at this
  exact this hfit

/-- C99: a frame of the full-AXI core, ended normally or by force, shows the begin of the image in memory: for every `k`, if the code of
the first `k` pixels of the beats read since the reset fits into the data between the markers, these data decode to exactly these pixels. -/
theorem C99_frame_begin {T : Table} (h : CamSetup c T) (hps : c.int1.ps = 2) (hbd : c.int1.bd = 12)
    {s : FullAxi} (hs : FullAfterReset c s) (ins : List FullIn) (i : FullIn) (hsl : ReadSlave c a 0 s (ins ++ [i]))
    (hd : ∀ j ∈ ins ++ [i], j.rdata < 2 ^ 64) (hno : ∀ x ∈ coreWords c a s ins, x.2 = false) {w : Nat}
    (hw : (w, true) ∈ coreWords c a s (ins ++ [i])) (k : Nat) :
    let words := coreWords c a s (ins ++ [i])
    let pixels := (readBeats c a s (ins ++ [i])).flatMap beatPixels
    let data := byteBits (unstuff (wordBytes ((words.drop 8).take (words.length - 16))))
    k ≤ c.int1.W * c.int1.H → k ≤ pixels.length → (encode T 12 c.int1.W (pixels.take k)).length ≤ data.length →
    ∃ rest, decode T 13 12 c.int1.W k [] data = some (pixels.take k, rest) := by
  intro words pixels data hkN hk hfit
  obtain ⟨body, hg, _, _, hb⟩ := full_frame_data h hps hbd hs ins i hsl hd hno hw
  have hbody : (words.drop 8).take (words.length - 16) = body := by
    show (List.drop 8 (coreWords c a s (ins ++ [i]))).take ((coreWords c a s (ins ++ [i])).length - 16) = body
    rw [hg, List.append_assoc, List.drop_left' (by simp [startMark])]
    rw [show (startMark ++ (body ++ endMark w)).length - 16 = body.length by simp [startMark, endMark]]
    exact List.take_left' rfl
  have hdata : data = byteBits (unstuff (wordBytes body)) := by
    show byteBits (unstuff (wordBytes ((words.drop 8).take (words.length - 16)))) = _
    rw [hbody]
  rw [hdata] at hfit ⊢
  exact (hb body (List.prefix_refl _) k hkN hk hfit).2

/-! ### What is in the memory -/

/-- The four 16-bit words of a beat, in the order in which the core gave them: the first one in the upper bits. -/
def beatWords (d : Nat) : List (Nat × Bool) :=
  [d / 2 ^ 48 % 2 ^ 16, d / 2 ^ 32 % 2 ^ 16, d / 2 ^ 16 % 2 ^ 16, d % 2 ^ 16].map fun x => (x, false)

theorem groups4_words : ∀ l : List Nat, (∀ x ∈ l, x < 2 ^ 16) → (groups4 l).flatMap beatWords <+: l.map fun x => (x, false)
  | [], _ => List.prefix_refl _
  | [_], _ => by simp [groups4]
  | [_, _], _ => by simp [groups4]
  | [_, _, _], _ => by simp [groups4]
  | x :: y :: z :: u :: r, h => by
    have hx := h x (by simp)
    have hy := h y (by simp)
    have hz := h z (by simp)
    have hu := h u (by simp)
    simp only [groups4, List.flatMap_cons, List.map_cons]
    have e : beatWords (x * 2 ^ 48 + y * 2 ^ 32 + z * 2 ^ 16 + u) = [(x, false), (y, false), (z, false), (u, false)] := by
      have e1 : (x * 2 ^ 48 + y * 2 ^ 32 + z * 2 ^ 16 + u) / 2 ^ 48 % 2 ^ 16 = x := by omega
      have e2 : (x * 2 ^ 48 + y * 2 ^ 32 + z * 2 ^ 16 + u) / 2 ^ 32 % 2 ^ 16 = y := by omega
      have e3 : (x * 2 ^ 48 + y * 2 ^ 32 + z * 2 ^ 16 + u) / 2 ^ 16 % 2 ^ 16 = z := by omega
      have e4 : (x * 2 ^ 48 + y * 2 ^ 32 + z * 2 ^ 16 + u) % 2 ^ 16 = u := by omega
      simp only [beatWords, List.map_cons, List.map_nil, e1, e2, e3, e4]
    rw [e]
    obtain ⟨t, ht⟩ := groups4_words r (fun w hw => h w (by simp [hw]))
    exact ⟨t, by rw [← ht]; rfl⟩

theorem flatMap_beats_length (l : List Nat) : (l.flatMap beatWords).length = 4 * l.length := by
  induction l with
  | nil => rfl
  | cons x l ih => rw [List.flatMap_cons, List.length_append, ih, List.length_cons]; simp [beatWords]; omega

theorem wordBytes_fst {l m : List (Nat × Bool)} (h : l.map Prod.fst = m.map Prod.fst) : wordBytes l = wordBytes m := by
  have : ∀ l : List (Nat × Bool), wordBytes l = (l.map Prod.fst).flatMap (bytesOf 2) := by
    intro l; rw [List.flatMap_map]; rfl
  rw [this, this, h]

/-- At most two beats are held back in the packer. -/
theorem given_close {s : FullAxi} (hs : FullAfterReset c s) (ins : List FullIn) (i : FullIn) (hnr : NoReset c a s ins) :
    (groups4 ((coreWords c a s ins).map Prod.fst)).length ≤ (pack64Given s.pack (observe c a pIn s (ins ++ [i]))).length + 2 := by
  obtain ⟨e1, e2, e3, e4⟩ := afterReset_pack hs
  have e5 : pack64Given s.pack (observe c a pIn s (ins ++ [i])) =
      pack64Given s.pack (observe c a pIn s ins ++ [{ pIn (fullRun c a s ins) i with valid := false }]) := by
    rw [observe_append, given_append, given_append]; rfl
  rw [e5, ← taken_obs ins s hnr]
  cases ins with
  | nil => simp [observe, pack64Taken, groups4]
  | cons j r =>
    have hv : (pIn s j).valid = false := e4 _
    have hd : ∀ k ∈ observe c a pIn (s.step c a j) r ++ [{ pIn (fullRun c a s (j :: r)) i with valid := false }], k.data < 2 ^ 16 := by
      intro k hk
      rcases List.mem_append.1 hk with hk | hk
      · exact pIn16 r _ (by rw [step_cam]; exact cam16_step e2 _) k hk
      · rw [List.mem_singleton.1 hk]
        have : Fix16 (fullRun c a s (j :: r)).cam.fix2 := by
          rw [cam_run]
          generalize observe c a cIn s (j :: r) = l
          clear hk e3 e5 hv e4
          generalize s.cam = x at *
          induction l generalizing x with
          | nil => exact e2
          | cons y l ih => exact ih _ (cam16_step e2 _)
        exact cam16_out this _
    have := (C35_in_order (pIn s j) _ hd).2
    simp only [observe, List.cons_append, pack64Taken, hv, Bool.false_and, Bool.false_eq_true, if_false, List.nil_append]
    rw [e1]
    rw [taken_append] at this
    simp only [pack64Taken, Bool.false_and, Bool.false_eq_true, if_false, List.append_nil] at this
    exact this

/-- C99: what a frame leaves in memory: apart from one beat, number 16, that may be an additional one, the words given before the last one,
in order, and at most 139 of these are missing. -/
theorem C99_memory_words {s : FullAxi} (hs : FullAfterReset c s) (ins : List FullIn) (i r : FullIn)
    (hsw : WriteSlave c a s (ins ++ [i] ++ [r])) (hno : ∀ x ∈ coreWords c a s ins, x.2 = false) :
    let mem := memBeats c a s (ins ++ [i] ++ [r])
    ∃ beats, (beats = mem ∨ 16 < mem.length ∧ beats = mem.eraseIdx 16) ∧
      beats.flatMap beatWords <+: coreWords c a s ins ∧
      (coreWords c a s ins).length ≤ (beats.flatMap beatWords).length + 139 := by
  intro mem
  obtain ⟨hnr, hpu⟩ := pushed_frame hs ins i r hno
  obtain ⟨n1, _⟩ := noReset_of ins (afterReset_resetOut hs) hno
  obtain ⟨e1, e2, e3, e4⟩ := afterReset_pack hs
  obtain ⟨k1, k2⟩ := wIn64 (ins ++ [i]) s hnr e2 e3
  obtain ⟨w1, w2⟩ := wSide_inv0 hs
  obtain ⟨hi, hq⟩ := WriteSide.run_inv _ 0 0 _ w1 (writeSlave_obs (ins ++ [i]) r s hnr hsw) (by
    intro j hj
    rcases List.mem_append.1 hj with hj | hj
    · exact k1 j hj
    · rw [List.mem_singleton.1 hj]; exact k2.2.2)
  rw [w2, List.nil_append, ← memBeats_obs (ins ++ [i]) r s hnr] at hq
  have hclose := given_close hs ins i n1
  rw [← pushed_obs _ _ hnr] at hclose
  have hsame : ∀ x, x ∈ coreWords c a s ins → x.1 < 2 ^ 16 := by
    intro x hx
    have h2 := taken_obs ins s n1
    have hmem : x.1 ∈ pack64Taken s.pack (observe c a pIn s ins) := by
      rw [h2]; exact List.mem_map_of_mem hx
    have hd := pIn16 (c := c) (a := a) ins s e2
    clear h2 hx hclose hq hi w1 w2 k1 k2 e1 e3 hpu
    generalize observe c a pIn s ins = l at *
    generalize s.pack = p at *
    induction l generalizing p with
    | nil => cases hmem
    | cons y l ih =>
      simp only [pack64Taken, List.mem_append] at hmem
      rcases hmem with hm | hm
      · split at hm
        · rw [List.mem_singleton.1 hm]; exact hd y (by simp)
        · cases hm
      · exact ih (fun j hj => hd j (by simp [hj])) _ hm
  have hgoal : ∀ beats q, q.length ≤ 32 → beats ++ q = WriteSide.pushed (wSide s)
      (observe c a wIn s (ins ++ [i]) ++ [{ wIn (fullRun c a s (ins ++ [i])) r with push := false }]) →
      beats.flatMap beatWords <+: coreWords c a s ins ∧
      (coreWords c a s ins).length ≤ (beats.flatMap beatWords).length + 139 := by
    intro beats q hq32 he
    constructor
    · have hb : beats <+: groups4 ((coreWords c a s ins).map Prod.fst) := List.IsPrefix.trans ⟨q, he⟩ hpu
      have h1 := (flatMap_prefix beatWords hb).trans (groups4_words _ (by
        intro x hx
        obtain ⟨y, hy, rfl⟩ := List.mem_map.1 hx
        exact hsame y hy))
      have h2 : ((coreWords c a s ins).map Prod.fst).map (fun x => (x, false)) = coreWords c a s ins := by
        rw [List.map_map]
        refine List.map_congr_left (fun x hx => ?_) |>.trans (List.map_id _)
        exact Prod.ext rfl (hno x hx).symm
      rw [h2] at h1; exact h1
    · have h1 := congrArg List.length he
      have h3 : ∀ (x : WriteSide) (y : WriteSideIn), WriteSide.pushed x [{ y with push := false }] = [] := by
        intro x y; simp [WriteSide.pushed]
      rw [pushed_append, h3, List.append_nil, List.length_append] at h1
      rw [groups4_length, List.length_map] at hclose
      rw [flatMap_beats_length]
      omega
  have hq32 : (WriteSide.run (wSide s) (observe c a wIn s (ins ++ [i]) ++
      [{ wIn (fullRun c a s (ins ++ [i])) r with push := false }])).queue.length ≤ 32 := by
    rw [WriteSide.queue, List.length_map, SyncFifo.contents_length]
    exact hi.fifo.level
  rcases hq with hq | ⟨_, h2, hq⟩
  · exact ⟨mem, .inl rfl, hgoal _ _ hq32 hq⟩
  · refine ⟨mem.eraseIdx 16, .inr ⟨?_, rfl⟩, hgoal _ _ hq32 hq⟩
    have := congrArg List.length (memBeats_obs (c := c) (a := a) (ins ++ [i]) r s hnr)
    rw [List.length_map] at this
    show 16 < (memBeats c a s (ins ++ [i] ++ [r])).length
    omega

theorem drop_take_prefix {pre body post l : List (Nat × Bool)} (h : l <+: pre ++ body ++ post) :
    (l.drop pre.length).take body.length <+: body ∧
      ((l.drop pre.length).take body.length).length = min (l.length - pre.length) body.length := by
  obtain ⟨t, ht⟩ := h
  constructor
  · have h1 : (l.drop pre.length).take body.length <+: ((l ++ t).drop pre.length).take body.length := by
      rw [List.drop_append]
      rw [List.take_append]
      exact List.prefix_append _ _
    rw [ht, List.append_assoc, List.drop_left' rfl, List.take_left' rfl] at h1
    exact h1
  · rw [List.length_take, List.length_drop]; omega

theorem unstuff_cut : ∀ p t : List Nat, (unstuff (p ++ t)).length ≤ (unstuff p).length + t.length
  | [], t => by
    have : ∀ t : List Nat, (unstuff t).length ≤ t.length := by
      intro t
      induction t using unstuff.induct <;> simp_all [unstuff] <;> omega
    simpa [unstuff] using this t
  | [x], t => by
    have h0 : ∀ t : List Nat, (unstuff t).length ≤ t.length := by
      intro t
      induction t using unstuff.induct <;> simp_all [unstuff] <;> omega
    have := h0 (x :: t)
    simp only [List.cons_append, List.nil_append, List.length_cons] at this ⊢
    simp only [unstuff, List.length_singleton]; omega
  | x :: y :: p, t => by
    simp only [List.cons_append, unstuff]
    split
    · have := unstuff_cut p t
      simp only [List.length_cons]; omega
    · have := unstuff_cut (y :: p) t
      rw [List.cons_append] at this
      simp only [List.length_cons] at this ⊢; omega

theorem encodeFrom_ge {T : Table} {bd W m : Nat} (hbd : 0 < bd) (hm : AtLeast T bd m) : ∀ (more l : List Nat),
    (∀ x ∈ l, x < 2 ^ bd) → (∀ x ∈ more, x < 2 ^ bd) → m * more.length ≤ (encodeFrom T bd W l more).length
  | [], _, _, _ => by simp [encodeFrom]
  | x :: more, l, hl, h => by
    have hx := h x (List.mem_cons_self ..)
    have h1 := encodeFrom_ge (W := W) hbd hm more (l ++ [x]) (by
      intro y hy
      rcases List.mem_append.1 hy with hy | hy
      · exact hl y hy
      · rw [List.mem_singleton.1 hy]; exact hx) (fun y hy => h y (List.mem_cons_of_mem _ hy))
    have hp := pred_lt (W := W) hbd hl l.length
    have h2 := hm (cls ((x : Int) - (pred bd W l l.length : Nat))) (cls_le (by omega))
    rw [encodeFrom, List.length_append, pixelBits, diffBits_length, List.length_cons, Nat.mul_succ]
    omega

/-- The code of the first `k` pixels is shorter than that of the first `N` by at least `m` bits for every pixel. -/
theorem encode_take_le {T : Table} {bd W m N k : Nat} (hW : 4 ≤ W) (hbd : 0 < bd) (hm : AtLeast T bd m) {pixels : List Nat}
    (hlt : ∀ x ∈ pixels, x < 2 ^ bd) (hk : k ≤ N) (hN : N ≤ pixels.length) :
    (encode T bd W (pixels.take k)).length + m * (N - k) ≤ (encode T bd W (pixels.take N)).length := by
  have hsplit : pixels.take N = pixels.take k ++ (pixels.drop k).take (N - k) := by
    rw [← List.take_append_drop k (pixels.take N), List.take_take, List.drop_take, Nat.min_eq_left hk]
  rw [hsplit, encode_append hW, List.length_append]
  have := encodeFrom_ge (W := W) hbd hm ((pixels.drop k).take (N - k)) (pixels.take k)
    (fun x hx => hlt x (List.mem_of_mem_take hx)) (fun x hx => hlt x (List.mem_of_mem_drop (List.mem_of_mem_take hx)))
  rw [List.length_take, List.length_drop, Nat.min_eq_left (by omega)] at this
  omega

/-- The memory's part of the body. -/
theorem memory_part {T : Table} (h : CamSetup c T) (hps : c.int1.ps = 2) (hbd : c.int1.bd = 12)
    {s : FullAxi} (hs : FullAfterReset c s) (ins : List FullIn) (i r : FullIn) (hsl : ReadSlave c a 0 s (ins ++ [i]))
    (hsw : WriteSlave c a s (ins ++ [i] ++ [r])) (hd : ∀ j ∈ ins ++ [i], j.rdata < 2 ^ 64)
    (hno : ∀ x ∈ coreWords c a s ins, x.2 = false) {w : Nat} (hw : (w, true) ∈ coreWords c a s (ins ++ [i])) :
    ∃ beats, (beats = memBeats c a s (ins ++ [i] ++ [r]) ∨
        16 < (memBeats c a s (ins ++ [i] ++ [r])).length ∧ beats = (memBeats c a s (ins ++ [i] ++ [r])).eraseIdx 16) ∧
      ∃ part, part <+: (beats.flatMap beatWords).drop 8 ∧ (∃ bytes, wordBytes part <+: stuff bytes) ∧
        part = ((beats.flatMap beatWords).drop 8).take ((coreWords c a s (ins ++ [i])).length - 16) ∧
        (∀ k, k ≤ c.int1.W * c.int1.H → k ≤ ((readBeats c a s (ins ++ [i])).flatMap beatPixels).length →
          (encode T 12 c.int1.W (((readBeats c a s (ins ++ [i])).flatMap beatPixels).take k)).length ≤
            (byteBits (unstuff (wordBytes part))).length →
          encode T 12 c.int1.W (((readBeats c a s (ins ++ [i])).flatMap beatPixels).take k) <+: byteBits (unstuff (wordBytes part)) ∧
          ∃ rest, decode T 13 12 c.int1.W k [] (byteBits (unstuff (wordBytes ((beats.flatMap beatWords).drop 8)))) =
            some (((readBeats c a s (ins ++ [i])).flatMap beatPixels).take k, rest)) ∧
        (w = 0xFFFF → c.int1.W * c.int1.H ≤ ((readBeats c a s (ins ++ [i])).flatMap beatPixels).length ∧
          (encode T 12 c.int1.W (((readBeats c a s (ins ++ [i])).flatMap beatPixels).take (c.int1.W * c.int1.H))).length ≤
            (byteBits (unstuff (wordBytes part))).length + 2112) := by
  obtain ⟨body, hg, ⟨bytes, hst⟩, hn, hb⟩ := full_frame_data h hps hbd hs ins i hsl hd hno hw
  obtain ⟨beats, hbt, hpre, hlen⟩ := C99_memory_words (c := c) (a := a) hs ins i r hsw hno
  have hone : (coreWords c a s (ins ++ [i])).length ≤ (coreWords c a s ins).length + 1 := by
    rw [cam_words, cam_words, observe_append, camGiven_append, List.length_append]
    have : (camGiven c a (camRun c a s.cam (observe c a cIn s ins)) (observe c a cIn (fullRun c a s ins) [i])).length ≤ 1 := by
      simp only [observe, camGiven, List.append_nil]; split <;> simp
    omega
  have hpre2 : coreWords c a s ins <+: coreWords c a s (ins ++ [i]) := by
    rw [cam_words, cam_words, observe_append, camGiven_append]; exact List.prefix_append _ _
  have hall := hpre.trans hpre2
  have htot := congrArg List.length hg
  have h16 : (coreWords c a s (ins ++ [i])).length - 16 = body.length := by
    rw [htot]; simp [startMark, endMark]
  rw [hg] at hall
  obtain ⟨p1, p2⟩ := drop_take_prefix hall
  have hs8 : (startMark : List (Nat × Bool)).length = 8 := by simp [startMark]
  rw [hs8] at p1 p2
  refine ⟨beats, hbt, ((beats.flatMap beatWords).drop 8).take body.length, List.take_prefix _ _, ⟨bytes, ?_⟩, by rw [h16], ?_, ?_⟩
  · refine List.IsPrefix.trans ?_ hst
    generalize ((beats.flatMap beatWords).drop 8).take body.length = q at p1
    obtain ⟨t, rfl⟩ := p1
    rw [Fix2.wordBytes_append]
    exact List.prefix_append _ _
  · intro k hkN hk hfit
    obtain ⟨henc, rest, hdec⟩ := hb _ p1 k hkN hk hfit
    refine ⟨henc, ?_⟩
    obtain ⟨t, ht⟩ := List.take_prefix body.length ((beats.flatMap beatWords).drop 8)
    obtain ⟨u, hu⟩ := unstuff_prefix (wordBytes (((beats.flatMap beatWords).drop 8).take body.length)) (wordBytes t)
    rw [← Fix2.wordBytes_append, ht] at hu
    have e : byteBits (unstuff (wordBytes ((beats.flatMap beatWords).drop 8))) =
        byteBits (unstuff (wordBytes (((beats.flatMap beatWords).drop 8).take body.length))) ++ byteBits u := by
      rw [← hu]; simp [byteBits]
    rw [e]
    have hT := h.core.table
    rw [hbd] at hT
    exact ⟨_, decode_more hT _ _ _ _ hdec⟩
  · intro hx
    obtain ⟨h1, h2⟩ := hn hx
    refine ⟨h1, Nat.le_trans h2 ?_⟩
    obtain ⟨t, ht⟩ := p1
    have h3 := congrArg List.length ht
    rw [List.length_append, p2] at h3
    have h4 := unstuff_cut (wordBytes (((beats.flatMap beatWords).drop 8).take body.length)) (wordBytes t)
    rw [← Fix2.wordBytes_append, ht, wordBytes_length] at h4
    rw [byteBits_length, byteBits_length]
    have h5 : body.length ≤ (coreWords c a s (ins ++ [i])).length - 16 := by omega
    have h6 : (coreWords c a s (ins ++ [i])).length = body.length + 16 := by
      rw [htot]; simp [startMark, endMark]
    omega

/-- C99: a frame, ended normally or by force, as the memory has it after the reset cycle (without the beat number 16 if there is an
additional one): the data behind the start marker decode to the first `k` pixels read, for every `k` whose code fits into the part of them
that lies before the end marker. -/
theorem C99_memory_begin {T : Table} (h : CamSetup c T) (hps : c.int1.ps = 2) (hbd : c.int1.bd = 12)
    {s : FullAxi} (hs : FullAfterReset c s) (ins : List FullIn) (i r : FullIn) (hsl : ReadSlave c a 0 s (ins ++ [i]))
    (hsw : WriteSlave c a s (ins ++ [i] ++ [r])) (hd : ∀ j ∈ ins ++ [i], j.rdata < 2 ^ 64)
    (hno : ∀ x ∈ coreWords c a s ins, x.2 = false) {w : Nat} (hw : (w, true) ∈ coreWords c a s (ins ++ [i])) :
    let mem := memBeats c a s (ins ++ [i] ++ [r])
    let pixels := (readBeats c a s (ins ++ [i])).flatMap beatPixels
    ∃ beats, (beats = mem ∨ 16 < mem.length ∧ beats = mem.eraseIdx 16) ∧
      let data := (beats.flatMap beatWords).drop 8
      ∀ k, k ≤ c.int1.W * c.int1.H → k ≤ pixels.length →
        (encode T 12 c.int1.W (pixels.take k)).length ≤
          (byteBits (unstuff (wordBytes (data.take ((coreWords c a s (ins ++ [i])).length - 16))))).length →
        ∃ rest, decode T 13 12 c.int1.W k [] (byteBits (unstuff (wordBytes data))) = some (pixels.take k, rest) := by
  intro mem pixels
  obtain ⟨beats, hbt, part, _, _, rfl, h1, _⟩ := memory_part h hps hbd hs ins i r hsl hsw hd hno hw
  exact ⟨beats, hbt, fun k a b d => (h1 k a b d).2⟩

/-- C99: when a frame has ended normally, its image is in memory except for its tail: if every code has at least `m` bits, then all
but the last `2112 / m` pixels (rounded up) can be decoded from what is in memory after the reset cycle. -/
theorem C99_memory_image {T : Table} (h : CamSetup c T) (hps : c.int1.ps = 2) (hbd : c.int1.bd = 12) {m : Nat} (hm : AtLeast T 12 m)
    {s : FullAxi} (hs : FullAfterReset c s) (ins : List FullIn) (i r : FullIn) (hsl : ReadSlave c a 0 s (ins ++ [i]))
    (hsw : WriteSlave c a s (ins ++ [i] ++ [r])) (hd : ∀ j ∈ ins ++ [i], j.rdata < 2 ^ 64)
    (hno : ∀ x ∈ coreWords c a s ins, x.2 = false) (hw : (0xFFFF, true) ∈ coreWords c a s (ins ++ [i])) :
    let mem := memBeats c a s (ins ++ [i] ++ [r])
    let pixels := (readBeats c a s (ins ++ [i])).flatMap beatPixels
    c.int1.W * c.int1.H ≤ pixels.length ∧
    ∃ beats, (beats = mem ∨ 16 < mem.length ∧ beats = mem.eraseIdx 16) ∧
      ∀ k, k ≤ c.int1.W * c.int1.H → 2112 ≤ m * (c.int1.W * c.int1.H - k) →
        ∃ rest, decode T 13 12 c.int1.W k [] (byteBits (unstuff (wordBytes ((beats.flatMap beatWords).drop 8)))) =
          some (pixels.take k, rest) := by
  intro mem pixels
  obtain ⟨beats, hbt, part, _, _, _, h1, h2⟩ := memory_part h hps hbd hs ins i r hsl hsw hd hno hw
  obtain ⟨h3, h4⟩ := h2 rfl
  refine ⟨h3, beats, hbt, ?_⟩
  intro k hk hmk
  refine (h1 k hk (Nat.le_trans hk h3) ?_).2
  have h5 := encode_take_le h.core.legal.frame.W4 (N := c.int1.W * c.int1.H) (by decide) hm (beatPixels_lt (l := readBeats c a s (ins ++ [i]))) hk h3
  have h4' : (encode T 12 c.int1.W (pixels.take (c.int1.W * c.int1.H))).length ≤ _ := h4
  have h5' : (encode T 12 c.int1.W (pixels.take k)).length + _ ≤ (encode T 12 c.int1.W (pixels.take (c.int1.W * c.int1.H))).length := h5
  show (encode T 12 c.int1.W (pixels.take k)).length ≤ _
  omega

end

/-! ### The shipped netlist -/

open Netlist in
/-- C99 for the shipped netlist (memory_words): what a frame leaves in memory. -/
theorem C99_netlist_memory_words (s : BetaFull.top.S) (hs : FxStart s) (ins : List FullIn) (i r : FullIn)
    (hi : ∀ j ∈ ins ++ [i] ++ [r], FullIn.Ok j) (hsw : FxWriteSlave s (ins ++ [i] ++ [r])) (hno : ∀ x ∈ fxWords s ins, x.2 = false) :
    let mem := fxMemBeats s (ins ++ [i] ++ [r])
    ∃ beats, (beats = mem ∨ 16 < mem.length ∧ beats = mem.eraseIdx 16) ∧
      beats.flatMap beatWords <+: fxWords s ins ∧ (fxWords s ins).length ≤ (beats.flatMap beatWords).length + 139 := by
  intro mem
  obtain ⟨t, k1, k2⟩ := fxStart_sim hs
  obtain ⟨_, _, _, _, _, e5, _, _, _, e9, _⟩ := fx_run _ k2 hi
  have e6 := (fx_run ins k2 (fun j hj => hi j (List.mem_append_left _ (List.mem_append_left _ hj)))).2.2.2.2.2.2.1
  have := C99_memory_words (a := 6666000) k1 ins i r (e9.1 hsw) (e6 ▸ hno)
  rw [← e6, ← e5] at this
  exact this

open Netlist in
/-- C99 for the shipped netlist (frame_begin), for frames ended normally or by force. -/
theorem C99_netlist_frame_begin (s : BetaFull.top.S) (hs : FxStart s) (ins : List FullIn) (i : FullIn)
    (hi : ∀ j ∈ ins ++ [i], FullIn.Ok j) (hsl : FxReadSlave 0 s (ins ++ [i])) (hno : ∀ x ∈ fxWords s ins, x.2 = false) {w : Nat}
    (hw : (w, true) ∈ fxWords s (ins ++ [i])) (k : Nat) :
    let words := fxWords s (ins ++ [i])
    let pixels := (fxReadBeats s (ins ++ [i])).flatMap beatPixels
    let data := byteBits (unstuff (wordBytes ((words.drop 8).take (words.length - 16))))
    k ≤ 4096 * 3072 → k ≤ pixels.length → (encode defaultTable 12 4096 (pixels.take k)).length ≤ data.length →
    ∃ rest, decode defaultTable 13 12 4096 k [] data = some (pixels.take k, rest) := by
  intro words pixels
  obtain ⟨t, k1, k2⟩ := fxStart_sim hs
  obtain ⟨_, _, e2, _, _, _, e6, _, e8, _, _⟩ := fx_run (ins ++ [i]) k2 hi
  have e6' := (fx_run ins k2 (fun j hj => hi j (List.mem_append_left _ hj))).2.2.2.2.2.2.1
  have := C99_frame_begin (a := 6666000) beta_setup rfl rfl k1 ins i ((e8 0).1 hsl) hi (e6' ▸ hno) (e6 ▸ hw) k
  rw [← e6, ← e2] at this
  exact this

open Netlist in
/-- C99 for the shipped netlist (memory_begin), for frames ended normally or by force. -/
theorem C99_netlist_memory_begin (s : BetaFull.top.S) (hs : FxStart s) (ins : List FullIn) (i r : FullIn)
    (hi : ∀ j ∈ ins ++ [i] ++ [r], FullIn.Ok j) (hsl : FxReadSlave 0 s (ins ++ [i])) (hsw : FxWriteSlave s (ins ++ [i] ++ [r]))
    (hno : ∀ x ∈ fxWords s ins, x.2 = false) {w : Nat} (hw : (w, true) ∈ fxWords s (ins ++ [i])) :
    let mem := fxMemBeats s (ins ++ [i] ++ [r])
    let pixels := (fxReadBeats s (ins ++ [i])).flatMap beatPixels
    ∃ beats, (beats = mem ∨ 16 < mem.length ∧ beats = mem.eraseIdx 16) ∧
      let data := (beats.flatMap beatWords).drop 8
      ∀ k, k ≤ 4096 * 3072 → k ≤ pixels.length →
        (encode defaultTable 12 4096 (pixels.take k)).length ≤
          (byteBits (unstuff (wordBytes (data.take ((fxWords s (ins ++ [i])).length - 16))))).length →
        ∃ rest, decode defaultTable 13 12 4096 k [] (byteBits (unstuff (wordBytes data))) = some (pixels.take k, rest) := by
  intro mem pixels
  obtain ⟨t, k1, k2⟩ := fxStart_sim hs
  have hi1 : ∀ j ∈ ins ++ [i], FullIn.Ok j := fun j hj => hi j (List.mem_append_left _ hj)
  obtain ⟨_, _, e2, _, _, _, e6, _, e8, _, _⟩ := fx_run (ins ++ [i]) k2 hi1
  obtain ⟨_, _, _, _, _, e5, _, _, _, e9, _⟩ := fx_run _ k2 hi
  have e6' := (fx_run ins k2 (fun j hj => hi1 j (List.mem_append_left _ hj))).2.2.2.2.2.2.1
  have := C99_memory_begin (a := 6666000) beta_setup rfl rfl k1 ins i r ((e8 0).1 hsl) (e9.1 hsw) hi1 (e6' ▸ hno) (e6 ▸ hw)
  rw [← e6, ← e2, ← e5] at this
  exact this

open Netlist in
/-- C99 for the shipped netlist (memory_image): when a frame has ended normally, at least all but the last 528 of its 4096×3072 pixels can be
decoded from what is in memory after the reset cycle. -/
theorem C99_netlist_memory_image (s : BetaFull.top.S) (hs : FxStart s) (ins : List FullIn) (i r : FullIn)
    (hi : ∀ j ∈ ins ++ [i] ++ [r], FullIn.Ok j) (hsl : FxReadSlave 0 s (ins ++ [i])) (hsw : FxWriteSlave s (ins ++ [i] ++ [r]))
    (hno : ∀ x ∈ fxWords s ins, x.2 = false) (hw : (0xFFFF, true) ∈ fxWords s (ins ++ [i])) :
    let mem := fxMemBeats s (ins ++ [i] ++ [r])
    let pixels := (fxReadBeats s (ins ++ [i])).flatMap beatPixels
    4096 * 3072 ≤ pixels.length ∧
    ∃ beats, (beats = mem ∨ 16 < mem.length ∧ beats = mem.eraseIdx 16) ∧
      ∀ k, k + 528 ≤ 4096 * 3072 →
        ∃ rest, decode defaultTable 13 12 4096 k [] (byteBits (unstuff (wordBytes ((beats.flatMap beatWords).drop 8)))) =
          some (pixels.take k, rest) := by
  intro mem pixels
  obtain ⟨t, k1, k2⟩ := fxStart_sim hs
  have hi1 : ∀ j ∈ ins ++ [i], FullIn.Ok j := fun j hj => hi j (List.mem_append_left _ hj)
  obtain ⟨_, _, e2, _, _, _, e6, _, e8, _, _⟩ := fx_run (ins ++ [i]) k2 hi1
  obtain ⟨_, _, _, _, _, e5, _, _, _, e9, _⟩ := fx_run _ k2 hi
  have e6' := (fx_run ins k2 (fun j hj => hi1 j (List.mem_append_left _ hj))).2.2.2.2.2.2.1
  have := C99_memory_image (a := 6666000) beta_setup rfl rfl (default_atLeast (bd := 12) (by decide)) k1 ins i r ((e8 0).1 hsl) (e9.1 hsw) hi1
    (e6' ▸ hno) (e6 ▸ hw)
  rw [← e2, ← e5] at this
  obtain ⟨h1, beats, hb, h2⟩ := this
  refine ⟨h1, beats, hb, fun k hk => h2 k ?_ ?_⟩
  · show k ≤ 4096 * 3072; omega
  · show 2112 ≤ 4 * (4096 * 3072 - k); omega

/-! ### Examples -/

/-- A 16×34 image. -/
def bigCfg : CoreCfg :=
  { int1 := { bd := 12, ps := 2, W := 16, H := 34, mem := initHuffTable 12 }
    depth := 32, conv := 30, cdepth := 16, out := 16, buf := 77 }

def bigIns : List FullIn := memSystem bigCfg 1000 midPixel 0 0 (.init bigCfg) (dmaStart ++ List.replicate 690 liteIdle)

-- The hypotheses of C99_memory_image are met from power-up, for a frame with 659 words of which the last one is given in cycle 700:
-- the theorem says that the first 16 pixels are in memory; the 160 beats that are there hold many more, shown here for 60.
set_option maxRecDepth 100000 in
example : CamSetup bigCfg defaultTable ∧ FullAfterReset bigCfg (.init bigCfg) ∧
    (let s := FullAxi.init bigCfg
     let upto := bigIns.take 701
     let mem := memBeats bigCfg 1000 s bigIns
     ReadSlave bigCfg 1000 0 s upto ∧ WriteSlave bigCfg 1000 s bigIns ∧ (∀ j ∈ upto, j.rdata < 2 ^ 64) ∧
     (∀ x ∈ coreWords bigCfg 1000 s (bigIns.take 700), x.2 = false) ∧ (0xFFFF, true) ∈ coreWords bigCfg 1000 s upto ∧
     bigIns.length = 702 ∧ (coreWords bigCfg 1000 s upto).length = 659 ∧ mem.length = 160 ∧
     (decode defaultTable 13 12 16 60 [] (byteBits (unstuff (wordBytes ((mem.flatMap beatWords).drop 8))))).map Prod.fst =
       some ((List.range 60).map midPixel)) :=
  ⟨⟨default_setup (by decide) rfl, rfl, default_long _ (by decide)⟩,
   (C54_every_reset (a := 1000) ⟨default_setup (by decide) rfl, rfl, default_long _ (by decide)⟩ rfl rfl).1, by decide +kernel⟩

def cutIns : List FullIn := memSystem midCfg 100 midPixel 0 0 (.init midCfg) (dmaStart ++ List.replicate 120 liteIdle)

-- A frame ended by force after 100 cycles: 90 words, 17 beats in memory, and from these the first 51 pixels.
set_option maxRecDepth 100000 in
example :
    let s := FullAxi.init midCfg
    let upto := cutIns.take 131
    let mem := memBeats midCfg 100 s cutIns
    ReadSlave midCfg 100 0 s upto ∧ WriteSlave midCfg 100 s cutIns ∧ (∀ j ∈ upto, j.rdata < 2 ^ 64) ∧
    (∀ x ∈ coreWords midCfg 100 s (cutIns.take 130), x.2 = false) ∧ (0xFFFE, true) ∈ coreWords midCfg 100 s upto ∧
    cutIns.length = 132 ∧ (coreWords midCfg 100 s upto).length = 90 ∧ mem.length = 17 ∧
    (encode defaultTable 12 16 ((List.range 51).map midPixel)).length ≤
      (byteBits (unstuff (wordBytes (((mem.flatMap beatWords).drop 8).take (90 - 16))))).length ∧
    (decode defaultTable 13 12 16 51 [] (byteBits (unstuff (wordBytes ((mem.flatMap beatWords).drop 8))))).map Prod.fst =
      some ((List.range 51).map midPixel) := by decide +kernel

end Props.FullFrames
