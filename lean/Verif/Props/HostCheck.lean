/- Property theorems C61: the checks of the host test program. -/
import Verif.Spec.Raw12
import Verif.Model.HostTool
import Verif.Props.Beta

set_option autoImplicit false

namespace Props
open Spec Model Model.Host

/-! ### The loops -/

/-- The neighbour of a byte in its 16-bit word. -/
def mate (k : Nat) : Nat := if k % 2 = 0 then k + 1 else k - 1

theorem swapLoop_at (len2 i : Nat) (file : Nat → Nat) (hi : i % 2 = 0) (hl : len2 % 2 = 0) (k : Nat) :
    swapLoop len2 i file k = if i ≤ k ∧ k < len2 then file (mate k) else file k := by
  unfold swapLoop
  by_cases h : i < len2
  · rw [if_pos h]
    have e : 2 * (i / 2) = i := by omega
    simp only [e]
    have ih := swapLoop_at len2 (i + 2) (upd (upd file i (file (i + 1))) (i + 1) (file i)) (by omega) hl k
    rw [ih]
    by_cases h1 : k = i
    · subst h1
      rw [if_neg (by omega), if_pos (by omega)]
      simp [upd, mate, hi]
    · by_cases h2 : k = i + 1
      · subst h2
        rw [if_neg (by omega), if_pos (by omega)]
        simp only [upd, if_true, mate]
        rw [if_neg (by omega)]; rfl
      · by_cases h3 : i + 2 ≤ k ∧ k < len2
        · rw [if_pos h3, if_pos (by omega)]
          have : mate k ≠ i ∧ mate k ≠ i + 1 := by unfold mate; split <;> omega
          simp [upd, this]
        · rw [if_neg h3, if_neg (by omega)]
          simp [upd, h1, h2]
  · rw [if_neg h, if_neg (by omega)]
termination_by len2 - i

theorem reOrder_at (file : Nat → Nat) (len k : Nat) :
    reOrderLj92 file len k = if k < divisible2 len then file (mate k) else file k := by
  unfold reOrderLj92
  rw [swapLoop_at _ _ _ rfl (by unfold divisible2; split <;> omega)]
  simp

theorem load32_inj {m m' : Nat → Nat} {a a' : Nat} (h : ∀ k, m k < 256) (h' : ∀ k, m' k < 256) :
    load32 m a = load32 m' a' ↔ ∀ j, j < 4 → m (a + j) = m' (a' + j) := by
  unfold load32
  have x0 := h a
  have x1 := h (a + 1)
  have x2 := h (a + 2)
  have x3 := h (a + 3)
  have y0 := h' a'
  have y1 := h' (a' + 1)
  have y2 := h' (a' + 2)
  have y3 := h' (a' + 3)
  constructor
  · intro e j hj
    have : j = 0 ∨ j = 1 ∨ j = 2 ∨ j = 3 := by omega
    rcases this with rfl | rfl | rfl | rfl <;> (try simp only [Nat.add_zero]) <;> omega
  · intro e
    have e0 := e 0 (by omega)
    have e1 := e 1 (by omega)
    have e2 := e 2 (by omega)
    have e3 := e 3 (by omega)
    simp only [Nat.add_zero] at e0
    rw [e0, e1, e2, e3]

theorem wordsAgree_iff {d l : Nat → Nat} (h : ∀ k, d k < 256) (h' : ∀ k, l k < 256) (n i : Nat) :
    wordsAgree d l n i = true ↔ ∀ k, 4 * i ≤ k → k < 4 * n → d (16 + k) = l k := by
  unfold wordsAgree
  by_cases hi : i < n
  · rw [if_pos hi]
    by_cases he : load32 d (16 + 4 * i) = load32 l (4 * i)
    · have : (load32 d (16 + 4 * i) != load32 l (4 * i)) = false := by simp [he]
      rw [this, if_neg (by simp), wordsAgree_iff h h' n (i + 1)]
      rw [load32_inj h h'] at he
      constructor
      · intro hk k h1 h2
        by_cases hq : k < 4 * i + 4
        · have := he (k - 4 * i) (by omega)
          rw [show 16 + 4 * i + (k - 4 * i) = 16 + k by omega, show 4 * i + (k - 4 * i) = k by omega] at this
          exact this
        · exact hk k (by omega) h2
      · intro hk k h1 h2; exact hk k (by omega) h2
    · have : (load32 d (16 + 4 * i) != load32 l (4 * i)) = true := by simp [he]
      rw [this, if_pos rfl]
      constructor
      · intro hf; cases hf
      · intro hk
        exact absurd ((load32_inj h h').2 fun j hj => by
          have := hk (4 * i + j) (by omega) (by omega)
          rw [← this]; congr 1; omega) he
  · rw [if_neg hi]
    constructor
    · intro _ k h1 h2; omega
    · intro _; rfl
termination_by n - i

theorem bytesAgree_iff (d l : Nat → Nat) (n i : Nat) :
    bytesAgree d l n i = true ↔ ∀ k, i ≤ k → k < n → d (16 + k) = l k := by
  unfold bytesAgree
  by_cases hi : i < n
  · rw [if_pos hi]
    by_cases he : d (16 + i) = l i
    · have : (d (16 + i) != l i) = false := by simp [he]
      rw [this, if_neg (by simp), bytesAgree_iff d l n (i + 1)]
      constructor
      · intro hk k h1 h2
        by_cases hq : k = i
        · rw [hq]; exact he
        · exact hk k (by omega) h2
      · intro hk k h1 h2; exact hk k (by omega) h2
    · have : (d (16 + i) != l i) = true := by simp [he]
      rw [this, if_pos rfl]
      constructor
      · intro hf; cases hf
      · intro hk; exact absurd (hk i (Nat.le_refl _) hi) he
  · rw [if_neg hi]
    constructor
    · intro _ k h1 h2; omega
    · intro _; rfl
termination_by n - i

theorem validate_iff {d l : Nat → Nat} (h : ∀ k, d k < 256) (h' : ∀ k, l k < 256) {len : Nat} (h10 : 10 ≤ len) (hlen : len < 2 ^ 31) :
    validate d l len = true ↔ ∀ k, k < len → d (16 + k) = l k := by
  unfold validate
  rw [Bool.and_eq_true, wordsAgree_iff h h', bytesAgree_iff, show (len + 2 ^ 32 - 10) % 2 ^ 32 = len - 10 by omega]
  constructor
  · rintro ⟨a, b⟩ k hk
    by_cases hq : k < 4 * (len / 4)
    · exact a k (by omega) hq
    · exact b k (by omega) hk
  · intro hk
    exact ⟨fun k _ h2 => hk k (by omega), fun k _ h2 => hk k h2⟩

/-! ### Memories and words -/

theorem holds16_bytes {mem : Nat → Nat} {ws : List (Nat × Bool)} (h : Holds16 mem (ws.map (·.1))) {k : Nat} (hk : k < 2 * ws.length) :
    mem k = (wordBytes ws).getD (mate k) 0 := by
  have hb : ∀ (ws : List (Nat × Bool)) (q : Nat), q < ws.length →
      (wordBytes ws).getD (2 * q) 0 = (ws.map (·.1)).getD q 0 / 256 % 256 ∧ (wordBytes ws).getD (2 * q + 1) 0 = (ws.map (·.1)).getD q 0 % 256 := by
    intro ws
    induction ws with
    | nil => intro q hq; simp at hq
    | cons w ws ih =>
      intro q hq
      cases q with
      | zero => simp [wordBytes, bytesOf]
      | succ q =>
        have := ih q (by simpa using hq)
        rw [show 2 * (q + 1) = 2 * q + 2 by omega, show 2 * q + 2 + 1 = (2 * q + 1) + 2 by omega]
        simpa [wordBytes, bytesOf] using this
  have hm := h (k / 2) (by rw [List.length_map]; omega)
  have hw := hb ws (k / 2) (by omega)
  unfold mate
  by_cases he : k % 2 = 0
  · rw [if_pos he]
    have e : k = 2 * (k / 2) := by omega
    rw [show mem k = mem (2 * (k / 2)) by rw [← e], hm.1, ← hw.2]
    congr 1; omega
  · rw [if_neg he]
    have e : k = 2 * (k / 2) + 1 := by omega
    rw [show mem k = mem (2 * (k / 2) + 1) by rw [← e], hm.2, ← hw.1]
    congr 1; omega

theorem holds16_lt {mem : Nat → Nat} {ws : List (Nat × Bool)} (h : Holds16 mem (ws.map (·.1))) {k : Nat} (hk : k < 2 * ws.length) :
    mem k < 256 := by
  have hm := h (k / 2) (by rw [List.length_map]; omega)
  by_cases he : k % 2 = 0
  · have e : k = 2 * (k / 2) := by omega
    rw [e, hm.1]; exact Nat.mod_lt _ (by decide)
  · have e : k = 2 * (k / 2) + 1 := by omega
    rw [e, hm.2]; exact Nat.mod_lt _ (by decide)

theorem drop_bytes (ws : List (Nat × Bool)) (k : Nat) : (wordBytes (ws.drop 8)).getD k 0 = (wordBytes ws).getD (16 + k) 0 := by
  have : ∀ (n : Nat) (ws : List (Nat × Bool)), wordBytes (ws.drop n) = (wordBytes ws).drop (2 * n) := by
    intro n
    induction n with
    | zero => intro ws; rfl
    | succ n ih =>
      intro ws
      cases ws with
      | nil => simp [wordBytes]
      | cons w ws =>
        rw [List.drop_succ_cons, ih, show 2 * (n + 1) = 2 * n + 2 by omega]
        simp [wordBytes, bytesOf]
  rw [this, List.getD_eq_getElem?_getD, List.getElem?_drop, List.getD_eq_getElem?_getD]

/-- C61: what "Validation succeeded." means. The destination memory holds the 16-bit words `ws` of the stream, at least
as many as the file needs. For a reference file of even length the verdict is positive exactly if the words after the
first eight, most significant byte first, begin with the bytes of the file. For odd length the last byte of the file is
not looked at; instead the byte behind it in the stream must equal the byte behind the file. -/
theorem C61_verdict {mem file : Nat → Nat} {ws : List (Nat × Bool)} {len : Nat} (hmem : Holds16 mem (ws.map (·.1)))
    (hb : ∀ k, mem k < 256) (hf : ∀ k, file k < 256) (h10 : 10 ≤ len) (hlen : len < 2 ^ 31) (hroom : 16 + len + 1 ≤ 2 * ws.length) :
    validate mem (reOrderLj92 file len) len = true ↔
      ∀ k, k < len → (if len % 2 = 1 ∧ k = len - 1 then (wordBytes (ws.drop 8)).getD (k + 1) 0 = file (k + 1)
        else (wordBytes (ws.drop 8)).getD k 0 = file k) := by
  have hr : ∀ k, reOrderLj92 file len k < 256 := by intro k; rw [reOrder_at]; split <;> exact hf _
  rw [validate_iff hb hr h10 hlen]
  have key : ∀ k, k < len → (mem (16 + k) = reOrderLj92 file len k ↔ (wordBytes (ws.drop 8)).getD (mate k) 0 = file (mate k)) := by
    intro k hk
    rw [holds16_bytes hmem (by omega), reOrder_at, if_pos (by unfold divisible2; split <;> omega), drop_bytes]
    rw [show mate (16 + k) = 16 + mate k by unfold mate; rw [show (16 + k) % 2 = k % 2 by omega]; split <;> omega]
  constructor
  · intro h k hk
    split
    · rename_i hc
      have := (key k hk).1 (h k hk)
      rw [show mate k = k + 1 by unfold mate; rw [if_pos (by omega)]] at this
      exact this
    · rename_i hc
      have hm : mate k < len := by unfold mate; split <;> omega
      have := (key (mate k) hm).1 (h _ hm)
      rw [show mate (mate k) = k by unfold mate; split <;> (split <;> omega)] at this
      exact this
  · intro h k hk
    rw [key k hk]
    by_cases hc : len % 2 = 1 ∧ k = len - 1
    · have := h k hk
      rw [if_pos hc] at this
      rw [show mate k = k + 1 by unfold mate; rw [if_pos (by omega)]]
      exact this
    · have hm : mate k < len := by unfold mate; split <;> omega
      have := h _ hm
      rw [if_neg (by unfold mate; split <;> omega)] at this
      exact this

/-- C61, limit: for odd length the verdict does not depend on the last byte of the file. -/
theorem C61_odd_last_byte_unchecked {mem file : Nat → Nat} {len : Nat} (hb : ∀ k, mem k < 256) (hf : ∀ k, file k < 256) (h10 : 10 ≤ len)
    (hlen : len < 2 ^ 31) (hodd : len % 2 = 1) (b : Nat) (hb' : b < 256) :
    validate mem (reOrderLj92 (upd file (len - 1) b) len) len = validate mem (reOrderLj92 file len) len := by
  have hf' : ∀ k, upd file (len - 1) b k < 256 := by intro k; unfold upd; split; exact hb'; exact hf _
  have hr : ∀ g : Nat → Nat, (∀ k, g k < 256) → ∀ k, reOrderLj92 g len k < 256 := by
    intro g hg k; rw [reOrder_at]; split <;> exact hg _
  rw [Bool.eq_iff_iff, validate_iff hb (hr _ hf') h10 hlen, validate_iff hb (hr _ hf) h10 hlen]
  have : ∀ k, k < len → reOrderLj92 (upd file (len - 1) b) len k = reOrderLj92 file len k := by
    intro k hk
    rw [reOrder_at, reOrder_at, if_pos (by unfold divisible2; split <;> omega), if_pos (by unfold divisible2; split <;> omega)]
    simp only [upd]
    rw [if_neg (by unfold mate; split <;> omega)]
  constructor
  · intro h k hk; rw [← this k hk]; exact h k hk
  · intro h k hk; rw [this k hk]; exact h k hk

/-- C61, limit: for files shorter than ten bytes only whole 32-bit words are compared. -/
theorem C61_short_file {mem lj92 : Nat → Nat} {len : Nat} (hb : ∀ k, mem k < 256) (hf : ∀ k, lj92 k < 256) (h10 : len < 10) :
    validate mem lj92 len = true ↔ ∀ k, k < 4 * (len / 4) → mem (16 + k) = lj92 k := by
  unfold validate
  rw [Bool.and_eq_true, wordsAgree_iff hb hf, bytesAgree_iff]
  constructor
  · rintro ⟨a, _⟩ k hk; exact a k (by omega) hk
  · intro h; exact ⟨fun k _ hk => h k hk, fun k h1 h2 => by omega⟩

/-! ### The memory after a frame -/

theorem byteBits_length (l : List Nat) : (byteBits l).length = 8 * l.length := by
  induction l with
  | nil => rfl
  | cons b l ih => simp only [byteBits, List.flatMap_cons, List.length_append, toBits_length, List.length_cons] at ih ⊢; omega

theorem byteBits_inj : ∀ {a b : List Nat}, (∀ x ∈ a, x < 256) → (∀ x ∈ b, x < 256) → byteBits a = byteBits b → a = b
  | [], [], _, _, _ => rfl
  | [], y :: b, _, _, h => by have := congrArg List.length h; simp [byteBits_length] at this
  | x :: a, [], _, _, h => by have := congrArg List.length h; simp [byteBits_length] at this
  | x :: a, y :: b, ha, hb, h => by
    simp only [byteBits, List.flatMap_cons] at h
    obtain ⟨h1, h2⟩ := List.append_inj h (by simp)
    rw [toBits_inj (n := 8) (ha x (by simp)) (hb y (by simp)) h1,
      byteBits_inj (fun z hz => ha z (by simp [hz])) (fun z hz => hb z (by simp [hz])) h2]

theorem mem_stuff {l : List Nat} {x : Nat} (h : x ∈ l) : x ∈ stuff l := by
  induction l with
  | nil => cases h
  | cons b l ih =>
    simp only [stuff]
    rcases List.mem_cons.1 h with rfl | h
    · split
      · rename_i e; simp [e]
      · simp
    · split <;> simp [ih h]

theorem wordBytes_lt {ws : List (Nat × Bool)} {x : Nat} (h : x ∈ wordBytes ws) : x < 256 := by
  simp only [wordBytes, List.mem_flatMap, bytesOf, List.mem_cons, List.not_mem_nil, or_false] at h
  obtain ⟨w, _, rfl | rfl⟩ := h <;> exact Nat.mod_lt _ (by decide)

/-- The bytes of a normally ended frame are those of a byte-aligned reference scan and at most two zero bytes. -/
theorem body_reference {body : List (Nat × Bool)} {bytes ref : List Nat} {bits : List Bool} {k j j' : Nat} (hk : k ≤ 1) (hj : j < 16)
    (h : wordBytes body = stuff bytes ++ List.replicate k 0) (hb : byteBits bytes = bits ++ List.replicate j false)
    (hr : byteBits ref = bits ++ List.replicate j' false) (hj' : j' < 8) (href : ∀ x ∈ ref, x < 256) :
    ∃ z, z ≤ 2 ∧ wordBytes body = stuff ref ++ List.replicate z 0 := by
  have hlt : ∀ x ∈ bytes, x < 256 := fun x hx => wordBytes_lt (ws := body) (by rw [h]; exact List.mem_append_left _ (mem_stuff hx))
  have l1 := congrArg List.length hb
  have l2 := congrArg List.length hr
  simp only [byteBits_length, List.length_append, List.length_replicate] at l1 l2
  by_cases hc : j = j'
  · subst hc
    have := byteBits_inj hlt href (hb.trans hr.symm)
    subst this
    exact ⟨k, by omega, h⟩
  · have e : j = j' + 8 := by omega
    have : bytes = ref ++ [0] := by
      apply byteBits_inj hlt
      · intro x hx
        rcases List.mem_append.1 hx with hx | hx
        · exact href x hx
        · rw [List.mem_singleton.1 hx]; decide
      · rw [hb, e, ← List.replicate_append_replicate, ← List.append_assoc, ← hr]
        simp [byteBits]
        decide
    refine ⟨k + 1, by omega, ?_⟩
    rw [h, this, stuff_append, List.append_assoc]
    rfl

theorem stuff_last (l : List Nat) (h : 0 < (stuff l).length) : (stuff l).getD ((stuff l).length - 1) 0 ≠ 255 := by
  intro he
  have e : stuff l = (stuff l).dropLast ++ [255] := by
    have hne : stuff l ≠ [] := by intro h0; rw [h0] at h; simp at h
    have := (List.dropLast_concat_getLast hne).symm
    rw [List.getLast_eq_getElem] at this
    rw [List.getD_eq_getElem?_getD, List.getElem?_eq_getElem (by omega)] at he
    simp only [Option.getD_some] at he
    rw [he] at this
    exact this
  have hm := markerFree_stuff l
  rw [e] at hm
  have : ∀ p : List Nat, ¬ MarkerFree (p ++ [255]) := by
    intro p
    induction p with
    | nil => intro h; obtain ⟨t, ht⟩ := h.1 rfl; cases ht
    | cons x p ih => intro h; exact ih h.2
  exact this _ hm

theorem getD_append3 {a b c : List Nat} {k : Nat} (h : a.length ≤ k) (h2 : k < a.length + b.length) :
    (a ++ b ++ c).getD k 0 = b.getD (k - a.length) 0 := by
  rw [List.getD_eq_getElem?_getD, List.append_assoc, List.getElem?_append_right h, List.getElem?_append_left (by omega),
    List.getD_eq_getElem?_getD]

theorem mem_layout {mem : Nat → Nat} {body : List (Nat × Bool)} {w : Nat} {m : List Nat} (hw : wordBytes (endMark w) = m)
    (hmem : Holds16 mem ((startMark ++ body ++ endMark w).map (·.1))) :
    (∀ q, q < 16 → mem q = 255) ∧ (∀ q, q < 2 * body.length → mem (16 + q) = (wordBytes body).getD (mate q) 0) ∧
    (∀ q, q < 16 → mem (16 + 2 * body.length + q) = m.getD (mate q) 0) := by
  have hs : wordBytes startMark = List.replicate 16 255 := by decide
  have hl : (startMark ++ body ++ endMark w).length = 16 + body.length := by
    simp only [startMark, endMark, List.length_append, List.length_replicate, List.length_cons, List.length_nil]; omega
  have hb : ∀ k, k < 32 + 2 * body.length → mem k = (List.replicate 16 255 ++ wordBytes body ++ m).getD (mate k) 0 := by
    intro k hk
    rw [holds16_bytes hmem (by rw [hl]; omega), Fix2.wordBytes_append, Fix2.wordBytes_append, hs, hw]
  have hwl := wordBytes_length body
  refine ⟨?_, ?_, ?_⟩
  · intro q hq
    have hm : mate q < 16 := by unfold mate; split <;> omega
    rw [hb q (by omega), List.getD_eq_getElem?_getD, List.append_assoc, List.getElem?_append_left (by simpa using hm), List.getElem?_replicate,
      if_pos hm]
    rfl
  · intro q hq
    have hm : mate (16 + q) = 16 + mate q := by unfold mate; rw [show (16 + q) % 2 = q % 2 by omega]; split <;> omega
    have hm2 : mate q < 2 * body.length := by unfold mate; split <;> omega
    rw [hb _ (by omega), hm, getD_append3 (by simp) (by simp; omega)]
    congr 1; simp
  · intro q hq
    have hm : mate (16 + 2 * body.length + q) = 16 + 2 * body.length + mate q := by
      unfold mate; rw [show (16 + 2 * body.length + q) % 2 = q % 2 by omega]; split <;> omega
    rw [hb _ (by omega), hm, List.getD_eq_getElem?_getD, List.getElem?_append_right (by simp; omega), List.getD_eq_getElem?_getD]
    congr 2; simp; omega

theorem load_ff {m : Nat → Nat} {a : Nat} (h : ∀ j, j < 4 → m (a + j) = 255) : load32 m a = 0xFFFFFFFF := by
  have h0 := h 0 (by omega)
  have h1 := h 1 (by omega)
  have h2 := h 2 (by omega)
  have h3 := h 3 (by omega)
  rw [Nat.add_zero] at h0
  unfold load32
  rw [h0, h1, h2, h3]

theorem findLast_hit {d : Nat → Nat} {o n : Nat} (h : load32 d o = 0xFFFFFFFF) : findLast d (n + 1) o = o := by
  unfold findLast; simp [h]

theorem findLast_miss {d : Nat → Nat} {o n : Nat} (hb : ∀ k, d k < 256) (h3 : d (o + 3) = 255) (h0 : d o ≠ 255) :
    findLast d (n + 1) o = findLast d n (o + 1) := by
  have b0 := hb o
  have b1 := hb (o + 1)
  have b2 := hb (o + 2)
  have e1 : load32 d o ≠ 0xFFFFFFFF := by unfold load32; omega
  have e2 : load32 d o ≠ forceWord := by unfold load32 forceWord; omega
  rw [findLast]
  rw [if_neg (by simp [e1, e2])]

/-- C61: a correct frame passes. If the core's frame ended normally, the destination memory holds its words, and the
reference file is the stuffed, zero-filled to a byte, T.81 code of the same pixels, then the program finds the first
marker, prints that validation succeeded, and finds the normal end marker at most two bytes behind the data. -/
theorem C61_correct_frame_passes {c : CoreCfg} {T : Table} (h : CamSetup c T) (allowed : Nat) {s : Cam} (hs : CamAfterReset c s)
    (ins : List CamIn) (i : CamIn) (hwf : CamWf c (ins ++ [i])) (hno : ∀ x ∈ camGiven c allowed s ins, x.2 = false)
    (hw : (0xFFFF, true) ∈ camGiven c allowed s (ins ++ [i])) {mem file : Nat → Nat} (hb : ∀ k, mem k < 256) (hf : ∀ k, file k < 256)
    (hmem : Holds16 mem ((camGiven c allowed s (ins ++ [i])).map (·.1)))
    {ref : List Nat} {fill : Nat} (hfill : fill < 8) (hrb : ∀ x ∈ ref, x < 256)
    (href : byteBits ref = encode T c.int1.bd c.int1.W (camAccepted c allowed s (ins ++ [i])) ++ List.replicate fill false)
    (hfile : HoldsFile file (stuff ref)) (hpad : file (stuff ref).length = 0) (h10 : 10 ≤ (stuff ref).length) (h31 : (stuff ref).length < 2 ^ 31) :
    checkFirst mem = true ∧ validate mem (reOrderLj92 file (stuff ref).length) (stuff ref).length = true ∧
    ∃ d, d ≤ 2 ∧ checkLast mem (stuff ref).length = .normal d := by
  obtain ⟨body, hbody, _, hcase⟩ := C30_frame h allowed hs ins i hwf hno _ hw
  rcases hcase with ⟨_, _, bytes, k, j, hk, hj, e1, e2⟩ | ⟨hx, _⟩
  rotate_left
  · simp at hx
  obtain ⟨z, hz, ez⟩ := body_reference hk hj e1 e2 href hfill hrb
  rw [hbody] at hmem
  have hl : 2 * body.length = (stuff ref).length + z := by
    rw [← wordBytes_length, ez, List.length_append, List.length_replicate]
  obtain ⟨m1, m2, m3⟩ := mem_layout (m := List.replicate 16 255) (by decide) hmem
  have m3' : ∀ q, q < 16 → mem (16 + 2 * body.length + q) = 255 := by
    intro q hq
    have hm : mate q < 16 := by unfold mate; split <;> omega
    rw [m3 q hq, List.getD_eq_getElem?_getD, List.getElem?_replicate, if_pos hm]; rfl
  have bodyB : ∀ q, q < (stuff ref).length → (wordBytes body).getD q 0 = (stuff ref).getD q 0 := by
    intro q hq
    rw [ez, List.getD_eq_getElem?_getD, List.getElem?_append_left hq, List.getD_eq_getElem?_getD]
  have bodyZ : ∀ q, (stuff ref).length ≤ q → (wordBytes body).getD q 0 = 0 := by
    intro q hq
    rw [ez, List.getD_eq_getElem?_getD, List.getElem?_append_right hq, List.getElem?_replicate]
    split <;> rfl
  have hlast := stuff_last ref (by omega)
  generalize hlen : (stuff ref).length = len at *
  refine ⟨?_, ?_, ?_⟩
  · unfold checkFirst
    rw [List.all_eq_true]
    intro q hq
    have := List.mem_range.1 hq
    rw [load_ff fun j hj => m1 (4 * q + j) (by omega)]
    rfl
  · have hr : ∀ k, reOrderLj92 file len k < 256 := by intro k; rw [reOrder_at]; split <;> exact hf _
    rw [validate_iff hb hr h10 h31]
    intro q hq
    rw [reOrder_at, if_pos (by unfold divisible2; split <;> omega), m2 q (by omega)]
    by_cases hm : mate q < len
    · rw [bodyB _ hm, hfile _ (by omega)]
    · have : mate q = len := by unfold mate at hm ⊢; split at hm <;> split <;> omega
      rw [this, bodyZ _ (Nat.le_refl _), hpad]
  · have found : ∀ d, d ≤ 2 → findLast mem 128 (len + 16) = 16 + 2 * body.length → 2 * body.length = len + d →
        ∃ d, d ≤ 2 ∧ checkLast mem len = .normal d := by
      intro d hd he hd2
      have hoff := load_ff (m := mem) (a := 16 + 2 * body.length) fun j hj => m3' j (by omega)
      have hall : ((List.range 4).all fun i => load32 mem (16 + 2 * body.length + 4 * i) == 0xFFFFFFFF ||
          load32 mem (16 + 2 * body.length + 4 * i) == forceWord) = true := by
        rw [List.all_eq_true]
        intro q hq
        have := List.mem_range.1 hq
        rw [load_ff fun j hj => by rw [Nat.add_assoc]; exact m3' (4 * q + j) (by omega)]
        rfl
      refine ⟨d, hd, ?_⟩
      simp only [checkLast]
      rw [he, hall, if_pos rfl, hoff]
      rw [if_pos (by rfl)]
      congr 1; omega
    have hz3 : z = 0 ∨ z = 1 ∨ z = 2 := by omega
    rcases hz3 with rfl | rfl | rfl
    · apply found 0 (by omega) _ hl
      rw [show len + 16 = 16 + 2 * body.length by omega]
      exact findLast_hit (load_ff fun j hj => m3' j (by omega))
    · apply found 1 (by omega) _ hl
      rw [show len + 16 = 16 + len by omega, findLast_miss hb]
      · rw [show 16 + len + 1 = 16 + 2 * body.length by omega]
        exact findLast_hit (load_ff fun j hj => m3' j (by omega))
      · rw [show 16 + len + 3 = 16 + 2 * body.length + 2 by omega]; exact m3' 2 (by omega)
      · rw [m2 len (by omega), show mate len = len - 1 by unfold mate; rw [if_neg (by omega)], bodyB _ (by omega)]
        exact hlast
    · apply found 2 (by omega) _ hl
      rw [show len + 16 = 16 + len by omega, findLast_miss hb, findLast_miss hb]
      · rw [show 16 + len + 1 + 1 = 16 + 2 * body.length by omega]
        exact findLast_hit (load_ff fun j hj => m3' j (by omega))
      · rw [show 16 + len + 1 + 3 = 16 + 2 * body.length + 2 by omega]; exact m3' 2 (by omega)
      · rw [show 16 + len + 1 = 16 + (len + 1) by omega, m2 (len + 1) (by omega), show mate (len + 1) = len by unfold mate; rw [if_neg (by omega)]; omega,
          bodyZ _ (by omega)]
        decide
      · rw [show 16 + len + 3 = 16 + 2 * body.length + 1 by omega]; exact m3' 1 (by omega)
      · rw [m2 len (by omega), show mate len = len + 1 by unfold mate; rw [if_pos (by omega)], bodyZ _ (by omega)]
        decide

/-- C61, limit: the forced end marker is not found. The program looks for the bytes FF FE, but a DMA engine stores the
words FFFE as FE FF. Even if the search starts exactly at the marker and the memory behind it is zero, the verdict is that
there is no marker. -/
theorem C61_forced_marker_missed {body : List (Nat × Bool)} {mem : Nat → Nat}
    (hmem : Holds16 mem ((startMark ++ body ++ endMark 0xFFFE).map (·.1))) (hz : mem (32 + 2 * body.length) = 0) :
    checkLast mem (2 * body.length) = .none := by
  obtain ⟨_, _, m3⟩ := mem_layout (w := 0xFFFE) rfl hmem
  have e : ∀ q, q < 8 → mem (16 + 2 * body.length + 2 * q) = 254 ∧ mem (16 + 2 * body.length + (2 * q + 1)) = 255 := by
    intro q hq
    rw [m3 _ (by omega), m3 _ (by omega)]
    revert q
    decide
  generalize ho : 16 + 2 * body.length = o at *
  have e0 := e 0 (by omega)
  have e1 := e 1 (by omega)
  have e2 := e 2 (by omega)
  have e3 := e 3 (by omega)
  have e4 := e 4 (by omega)
  have e5 := e 5 (by omega)
  have e6 := e 6 (by omega)
  have e7 := e 7 (by omega)
  have hz : mem (o + 16) = 0 := by rw [← hz]; congr 1; omega
  simp only [Nat.mul_zero, Nat.add_zero, Nat.zero_add, Nat.reduceMul, Nat.reduceAdd] at e0 e1 e2 e3 e4 e5 e6 e7
  have f1 : findLast mem 128 o = o + 1 := by
    rw [findLast]
    have : load32 mem o = 0xFFFEFFFE := by unfold load32; rw [e0.1, e0.2, e1.1, e1.2]
    rw [this, if_neg (by decide), findLast]
    have : load32 mem (o + 1) = 0xFEFFFEFF := by
      unfold load32; rw [show o + 1 + 1 = o + 2 by omega, show o + 1 + 2 = o + 3 by omega, show o + 1 + 3 = o + 4 by omega, e0.2, e1.1, e1.2, e2.1]
    rw [this, if_pos (by decide)]
  have f2 : load32 mem (o + 1 + 4 * 3) = 0x00FFFEFF := by
    unfold load32
    rw [show o + 1 + 4 * 3 = o + 13 by omega, show o + 13 + 1 = o + 14 by omega, show o + 13 + 2 = o + 15 by omega,
      show o + 13 + 3 = o + 16 by omega, e6.2, e7.1, e7.2, hz]
  unfold checkLast
  rw [show 2 * body.length + 16 = o by omega]
  simp only [f1]
  rw [if_neg]
  rw [List.all_eq_true]
  intro hall
  have := hall 3 (by decide)
  rw [f2] at this
  exact absurd this (by decide)

/-! ### Success means that the image is right -/

theorem isPrefixOf_iff {a b : List Bool} : a.isPrefixOf b = true ↔ a <+: b := List.isPrefixOf_iff_prefix

/-- What is decoded from some bits is decoded from more bits. -/
theorem decodeDiff_more {T : Table} {n : Nat} (hT : PrefixFree T n) {bits more : List Bool} {r : Int × List Bool}
    (h : decodeDiff T n bits = some r) : decodeDiff T n (bits ++ more) = some (r.1, r.2 ++ more) := by
  unfold decodeDiff at h
  cases hf : (List.range n).find? (fun s => (T s).isPrefixOf bits) with
  | none => rw [hf] at h; cases h
  | some s =>
    rw [hf] at h
    have hs := List.find?_some hf
    have hmem := List.mem_of_find?_eq_some hf
    have hn := List.mem_range.1 hmem
    rw [isPrefixOf_iff] at hs
    have hfind : (List.range n).find? (fun s => (T s).isPrefixOf (bits ++ more)) = some s := by
      cases hg : (List.range n).find? (fun s => (T s).isPrefixOf (bits ++ more)) with
      | none =>
        have := List.find?_eq_none.1 hg s hmem
        exact absurd (isPrefixOf_iff.2 (hs.trans (List.prefix_append _ _))) this
      | some t =>
        have ht := List.find?_some hg
        have htn := List.mem_range.1 (List.mem_of_find?_eq_some hg)
        rw [isPrefixOf_iff] at ht
        rcases List.prefix_or_prefix_of_prefix ht (hs.trans (List.prefix_append _ _)) with e | e
        · rw [hT t s htn hn e]
        · rw [hT s t hn htn e]
    unfold decodeDiff
    rw [hfind]
    have hd : (bits ++ more).drop (T s).length = bits.drop (T s).length ++ more :=
      List.drop_append_of_le_length hs.length_le
    simp only [hd]
    simp only at h
    split at h
    · rename_i h16
      rw [if_pos h16]
      injection h with h; rw [← h]
    · rename_i h16
      rw [if_neg h16]
      split at h
      · cases h
      · rename_i hlen
        rw [if_neg (by rw [List.length_append]; omega)]
        injection h with h
        rw [← h, List.take_append_of_le_length (by omega), List.drop_append_of_le_length (by omega)]

theorem decode_more {T : Table} {n bd W : Nat} (hT : PrefixFree T n) (more : List Bool) :
    ∀ (k : Nat) (l : List Nat) (bits : List Bool) {r : List Nat × List Bool}, decode T n bd W k l bits = some r →
      decode T n bd W k l (bits ++ more) = some (r.1, r.2 ++ more)
  | 0, l, bits, r, h => by
    simp only [decode] at h ⊢
    injection h with h; rw [← h]
  | k + 1, l, bits, r, h => by
    simp only [decode] at h ⊢
    cases hd : decodeDiff T n bits with
    | none => simp [decodePixel, hd] at h
    | some q =>
      have := decodeDiff_more hT (more := more) hd
      simp only [decodePixel, hd, this, Option.map_some] at h ⊢
      exact decode_more hT more k _ _ h

theorem unstuff_prefix : ∀ (a b : List Nat), unstuff a <+: unstuff (a ++ b)
  | [], b => List.nil_prefix
  | [x], b => by
    cases b with
    | nil => exact List.prefix_refl _
    | cons y b =>
      show [x] <+: unstuff (x :: y :: b)
      simp only [unstuff]
      split
      · rename_i e; rw [e]; exact ⟨_, rfl⟩
      · exact ⟨_, rfl⟩
  | x :: y :: a, b => by
    show unstuff (x :: y :: a) <+: unstuff (x :: y :: (a ++ b))
    simp only [unstuff]
    split
    · exact (List.cons_prefix_cons).2 ⟨rfl, unstuff_prefix a b⟩
    · exact (List.cons_prefix_cons).2 ⟨rfl, unstuff_prefix (y :: a) b⟩

/-- C61: success means lossless. If the core's frame ended normally, the memory holds its words, and the program prints
that validation succeeded against a reference file of even length that decodes (with the same table) to `W*H` pixels, then
these are the pixels the core accepted. -/
theorem C61_success_is_lossless {c : CoreCfg} {T : Table} (h : CamSetup c T) (hbd : c.int1.bd ≤ 15) (allowed : Nat) {s : Cam}
    (hs : CamAfterReset c s) (ins : List CamIn) (i : CamIn) (hwf : CamWf c (ins ++ [i]))
    (hno : ∀ x ∈ camGiven c allowed s ins, x.2 = false) (hw : (0xFFFF, true) ∈ camGiven c allowed s (ins ++ [i]))
    {mem file : Nat → Nat} (hb : ∀ k, mem k < 256) (hf : ∀ k, file k < 256)
    (hmem : Holds16 mem ((camGiven c allowed s (ins ++ [i])).map (·.1)))
    {ref : List Nat} (hfile : HoldsFile file ref) (h10 : 10 ≤ ref.length) (h31 : ref.length < 2 ^ 31) (heven : ref.length % 2 = 0)
    (hroom : 16 + ref.length + 1 ≤ 2 * (camGiven c allowed s (ins ++ [i])).length)
    (hok : validate mem (reOrderLj92 file ref.length) ref.length = true)
    {image : List Nat} {rest : List Bool}
    (himg : decode T (c.int1.bd + 1) c.int1.bd c.int1.W (c.int1.W * c.int1.H) [] (byteBits (unstuff ref)) = some (image, rest)) :
    camAccepted c allowed s (ins ++ [i]) = image := by
  obtain ⟨body, hbody, _, _⟩ := C30_frame h allowed hs ins i hwf hno _ hw
  obtain ⟨pad, hdec⟩ := C30_image_recovered h hbd allowed hs ins i hwf hno hw
  have hv := (C61_verdict hmem hb hf h10 h31 (by omega)).1 hok
  have hd8 : (camGiven c allowed s (ins ++ [i])).drop 8 = body ++ endMark 0xFFFF := by
    rw [hbody, List.append_assoc]; exact List.drop_left' rfl
  have hlw : (camGiven c allowed s (ins ++ [i])).length = 16 + body.length := by
    rw [hbody]; simp only [startMark, endMark, List.length_append, List.length_replicate, List.length_cons, List.length_nil]; omega
  have hcut : ((camGiven c allowed s (ins ++ [i])).drop 8).take ((camGiven c allowed s (ins ++ [i])).length - 16) = body := by
    rw [hd8, hlw]; exact List.take_left' (by omega)
  rw [hcut] at hdec
  generalize hall : wordBytes (body ++ endMark 0xFFFF) = all at *
  have hlall : all.length = 2 * body.length + 16 := by
    rw [← hall, wordBytes_length]
    simp only [endMark, List.length_append, List.length_replicate, List.length_cons, List.length_nil]; omega
  have key : ∀ (p : List Nat), p <+: all → ∀ {img : List Nat} {rest : List Bool},
      decode T (c.int1.bd + 1) c.int1.bd c.int1.W (c.int1.W * c.int1.H) [] (byteBits (unstuff p)) = some (img, rest) →
      (decode T (c.int1.bd + 1) c.int1.bd c.int1.W (c.int1.W * c.int1.H) [] (byteBits (unstuff all))).map Prod.fst = some img := by
    rintro p ⟨t, rfl⟩ img rest hp
    obtain ⟨u, hu⟩ := unstuff_prefix p t
    rw [← hu, show byteBits (unstuff p ++ u) = byteBits (unstuff p) ++ byteBits u by simp [byteBits],
      decode_more h.core.table (byteBits u) _ _ _ hp]
    rfl
  have hpre : ref <+: all := by
    rw [List.prefix_iff_eq_take]
    apply List.ext_getElem
    · rw [List.length_take]; omega
    · intro k h1 h2
      have := hv k h1
      rw [if_neg (by omega), hd8, hall, hfile k h1] at this
      have hk : k < all.length := by omega
      rw [List.getD_eq_getElem?_getD, List.getElem?_eq_getElem hk, List.getD_eq_getElem?_getD, List.getElem?_eq_getElem h1] at this
      rw [List.getElem_take]
      simpa using this.symm
  have e1 := key ref hpre himg
  have e2 := key (wordBytes body) (by rw [← hall, Fix2.wordBytes_append]; exact List.prefix_append _ _) hdec
  rw [e1] at e2
  injection e2 with e2
  exact e2.symm

/-! ### Examples -/

/-- A small beta core: 1 pixel per step, 8x4 frame of 4-bit pixels. -/
def hostCam : CoreCfg :=
  { int1 := { bd := 4, ps := 1, W := 8, H := 4, mem := initHuffTable 4 }
    depth := 25, conv := 10, cdepth := 12, out := 16, buf := 26 }

def hostIns (n : Nat) : List CamIn := List.replicate n ⟨[5], true, false⟩

def hostWords : List Nat := (camGiven hostCam 1000 (Cam.init hostCam) (hostIns 66 ++ [⟨[5], true, false⟩])).map (·.1)

def hostMem (k : Nat) : Nat := (hostWords.flatMap fun w => [w % 256, w / 256 % 256]).getD k 0

/-- Reference scan: 17 bytes. -/
def hostRef : List Nat := [0x21, 0x08, 0x4E, 0xEE, 0xEE, 0xEE, 0xEE, 0xEE, 0xEE, 0xEE, 0xEE, 0xEE, 0xEE, 0xEE, 0xEE, 0xEE, 0xE0]

def hostFile (k : Nat) : Nat := hostRef.getD k 0

example : CamSetup hostCam defaultTable :=
  ⟨default_setup (by decide) rfl, rfl, default_long _ (by decide)⟩

example : CamWf hostCam (hostIns 67) := by
  intro i hi _
  rw [List.eq_of_mem_replicate hi]; decide

theorem host_lt (l : List Nat) (h : ∀ x ∈ l, x < 256) (k : Nat) : l.getD k 0 < 256 := by
  rw [List.getD_eq_getElem?_getD]
  cases hk : l[k]? with
  | none => decide
  | some x => exact h x (List.mem_of_getElem? hk)

example : (∀ k, hostMem k < 256) ∧ ∀ k, hostFile k < 256 :=
  ⟨host_lt _ (by
    intro x hx
    simp only [List.mem_flatMap, List.mem_cons, List.not_mem_nil, or_false] at hx
    obtain ⟨w, _, rfl | rfl⟩ := hx <;> exact Nat.mod_lt _ (by decide)), host_lt _ (by decide)⟩

-- The remaining hypotheses of C61_correct_frame_passes.
set_option maxRecDepth 40000 in
example : (∀ x ∈ camGiven hostCam 1000 (Cam.init hostCam) (hostIns 66), x.2 = false) ∧
    (0xFFFF, true) ∈ camGiven hostCam 1000 (Cam.init hostCam) (hostIns 66 ++ [⟨[5], true, false⟩]) ∧
    (∀ k, k < hostWords.length → hostMem (2 * k) = hostWords.getD k 0 % 256 ∧ hostMem (2 * k + 1) = hostWords.getD k 0 / 256 % 256) ∧
    (∀ x ∈ hostRef, x < 256) ∧
    byteBits hostRef = encode defaultTable 4 8 (camAccepted hostCam 1000 (Cam.init hostCam) (hostIns 66 ++ [⟨[5], true, false⟩])) ++
      List.replicate 4 false ∧
    stuff hostRef = hostRef ∧ (∀ k, k < hostRef.length → hostFile k = hostRef.getD k 0) ∧ hostFile hostRef.length = 0 := by
  decide +kernel

-- Those of C61_success_is_lossless, with the reference filled to an even number of bytes.
set_option maxRecDepth 40000 in
example : 16 + (hostRef ++ [0]).length + 1 ≤ 2 * hostWords.length ∧ (hostRef ++ [0]).length % 2 = 0 ∧
    (∀ k, k < (hostRef ++ [0]).length → (wordBytes ((hostWords.map fun w => (w, false)).drop 8)).getD k 0 = hostFile k) ∧
    (decode defaultTable 5 4 8 32 [] (byteBits (unstuff (hostRef ++ [0])))).map Prod.fst = some (List.replicate 32 5) := by
  decide +kernel

end Props
