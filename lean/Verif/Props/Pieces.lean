/- The core without its packer (`Integration2`): the pieces of code a reader takes from it, C89. -/
import Verif.Proof.Int2Run
import Verif.Props.Core
import Verif.Proof.Jpeg

set_option autoImplicit false

namespace Props.Pieces
open Spec Model

/-- The bits of pieces of code, one after the other, each given by its length and the number that holds its bits. -/
def pieceBits (l : List (Nat × Nat)) : List Bool := l.flatMap fun p => toBits p.1 p.2

/-- Length and bits of a piece. -/
def sized (p : Code) : Nat × Nat := (p.ctr, p.enc)

/-- The registers are at their reset values; the memories and read registers hold anything. -/
def Start2 (c : CoreCfg) (s : Int2) : Prop := ∃ m : Kept, m.Ok c ∧ s = Int2.reset c m

variable {c : CoreCfg} {T : Table}

theorem flatOf_bits (l : List Code) (h : none ∉ Int2.flatOf l) : Int2.flatOf l = (pieceBits (l.map sized)).map some := by
  induction l with
  | nil => rfl
  | cons p r ih =>
    rw [Int2.flatOf, List.flatMap_cons, List.mem_append, not_or] at h
    have he : p.endd = false := by
      cases hp : p.endd
      · rfl
      · exfalso; apply h.1; simp [Code.flat, hp]
    rw [Int2.flatOf, List.flatMap_cons, show List.flatMap Code.flat r = Int2.flatOf r from rfl, ih h.2]
    simp [Code.flat, he, pieceBits, sized]

theorem flatOf_append (a b : List Code) : Int2.flatOf (a ++ b) = Int2.flatOf a ++ Int2.flatOf b := by
  simp [Int2.flatOf]

theorem map_some_inj {a b : List Bool} (h : a.map some = b.map some) : a = b :=
  (List.map_inj_right (fun _ _ h => Option.some.inj h)).1 h

theorem mem_flatOf_none {l : List Code} : none ∈ Int2.flatOf l ↔ ∃ p ∈ l, p.endd = true := by
  simp only [Int2.flatOf, List.mem_flatMap]
  constructor
  · rintro ⟨p, hp, h⟩
    refine ⟨p, hp, ?_⟩
    cases he : p.endd
    · simp [Code.flat, he] at h
    · rfl
  · rintro ⟨p, hp, h⟩
    exact ⟨p, hp, by simp [Code.flat, h]⟩

theorem marked_none {bd W : Nat} {hist : List Nat} {b : Bool} (h : none ∈ marked T bd W hist b) : b = true := by
  cases b
  · simp [marked] at h
  · rfl

/-- The invariant at the end of a run. -/
theorem run_inv (h : CoreSetup c T) {s : Int2} (hs : Start2 c s) (ins : List Int2In) (hwf : Int2.Wf c ins) :
    (∃ k its, Int2.Inv c (c.int1.W / c.int1.ps) T (Int2.taken c s ins) k its (Int2.run c s ins)
      (Int2.flatOf (Int2.pieces c s ins))) ∧ ∀ p ∈ Int2.pieces c s ins, p.Ok c.conv := by
  obtain ⟨m, hm, rfl⟩ := hs
  have := Int2.run_ok h.ok ins (Int2.inv_reset h.ok hm) hwf
  simpa using this

theorem frame_len (h : CoreSetup c T) (H : Nat) : c.int1.ps * (c.int1.W / c.int1.ps * H) = c.int1.W * H := by
  rw [← Nat.mul_assoc, Nat.mul_div_cancel' h.legal.frame.dvd]

/-- What holds when the end mark is among the pieces `a ++ p :: b`. -/
theorem ended (h : CoreSetup c T) {s : Int2} (hs : Start2 c s) (ins : List Int2In) (hwf : Int2.Wf c ins)
    {a b : List Code} {p : Code} (hp : Int2.pieces c s ins = a ++ p :: b) (he : p.endd = true) :
    b = [] ∧ (Int2.taken c s ins).length = c.int1.W * c.int1.H ∧
    pieceBits ((Int2.pieces c s ins).map sized) = encode T c.int1.bd c.int1.W (Int2.taken c s ins) ∧
    ∀ x ∈ Int2.taken c s ins, x < 2 ^ c.int1.bd := by
  obtain ⟨⟨k, its, hi⟩, hok⟩ := run_inv h hs ins hwf
  have hst := hi.stream
  have hd : decide (k = c.int1.W / c.int1.ps * c.int1.H) = true := by
    apply marked_none (T := T) (bd := c.int1.bd) (W := c.int1.W) (hist := Int2.taken c s ins)
    rw [← hst]
    exact List.mem_append_left _ (mem_flatOf_none.2 ⟨p, by rw [hp]; simp, he⟩)
  have hw := wellMarked_marked T c.int1.bd c.int1.W (Int2.taken c s ins) (decide (k = c.int1.W / c.int1.ps * c.int1.H))
  have e1 : Int2.flatOf (a ++ p :: b) = Int2.flatOf a ++ (toBits p.ctr p.enc).map some ++ none :: Int2.flatOf b := by
    simp [Int2.flatOf, Code.flat, he]
  have hnil : Int2.flatOf b ++ Int2.pend c (Int2.run c s ins) its = [] := by
    apply hw (Int2.flatOf a ++ (toBits p.ctr p.enc).map some)
    rw [← hst, hp, e1]
    simp
  obtain ⟨hb0, hpend⟩ := List.append_eq_nil_iff.1 hnil
  have hb : b = [] := by
    cases b with
    | nil => rfl
    | cons q r =>
      exfalso
      rw [Int2.flatOf, List.flatMap_cons] at hb0
      exact Code.flat_ne_nil (hok q (by rw [hp]; simp)) (List.append_eq_nil_iff.1 hb0).1
  have hk : k = c.int1.W / c.int1.ps * c.int1.H := of_decide_eq_true hd
  refine ⟨hb, ?_, ?_, hi.int1.hbound⟩
  · rw [hi.int1.hlen, hk, frame_len h]
  · rw [hpend, List.append_nil, hp, e1, hd, marked, if_pos rfl, hb] at hst
    have hh := (List.append_inj' hst rfl).1
    have hno : none ∉ Int2.flatOf a := by
      intro hn
      have : (none : Option Bool) ∈ (encode T c.int1.bd c.int1.W (Int2.taken c s ins)).map some := by
        rw [← hh]; exact List.mem_append_left _ hn
      simp at this
    rw [flatOf_bits a hno, ← List.map_append] at hh
    rw [hp, hb, ← map_some_inj hh]
    simp [pieceBits, sized]

/-- C89: at every moment the bits of the pieces read so far are a prefix of the T.81 code of the pixels taken so far. -/
theorem C89_pieces_are_prefix (h : CoreSetup c T) (s : Int2) (hs : Start2 c s) (ins : List Int2In) (hwf : Int2.Wf c ins) :
    pieceBits ((Int2.pieces c s ins).map sized) <+: encode T c.int1.bd c.int1.W (Int2.taken c s ins) := by
  by_cases hn : ∃ p ∈ Int2.pieces c s ins, p.endd = true
  · obtain ⟨p, hp, he⟩ := hn
    obtain ⟨a, b, hab⟩ := List.append_of_mem hp
    rw [(ended h hs ins hwf hab he).2.2.1]
    exact List.prefix_refl _
  · obtain ⟨⟨k, its, hi⟩, _⟩ := run_inv h hs ins hwf
    have hst := hi.stream
    rw [flatOf_bits _ (fun hh => hn (mem_flatOf_none.1 hh)), marked] at hst
    have hpre : (pieceBits ((Int2.pieces c s ins).map sized)).map some <+:
        (encode T c.int1.bd c.int1.W (Int2.taken c s ins)).map some ++
          if decide (k = c.int1.W / c.int1.ps * c.int1.H) = true then [none] else [] := ⟨_, hst⟩
    obtain ⟨y, hy⟩ := hpre
    rw [List.append_eq_append_iff] at hy
    rcases hy with ⟨z, hz, _⟩ | ⟨z, hz, hz2⟩
    · rw [List.map_eq_append_iff] at hz
      obtain ⟨l1, l2, e, e1, e2⟩ := hz
      rw [e, ← map_some_inj e1]
      exact ⟨_, rfl⟩
    · cases z with
      | nil => rw [List.append_nil] at hz; rw [map_some_inj hz]; exact List.prefix_refl _
      | cons w z =>
        exfalso
        have hm : w ∈ (pieceBits ((Int2.pieces c s ins).map sized)).map some := by rw [hz]; simp
        split at hz2
        · simp at hz2
          rw [← hz2.1] at hm
          simp at hm
        · simp at hz2

/-- C89: every piece has between 1 and `conv` bits, and its number has no further bits. -/
theorem C89_piece_size (h : CoreSetup c T) (s : Int2) (hs : Start2 c s) (ins : List Int2In) (hwf : Int2.Wf c ins)
    (p : Code) (hp : p ∈ Int2.pieces c s ins) : 1 ≤ p.ctr ∧ p.ctr ≤ c.conv ∧ p.enc < 2 ^ p.ctr := by
  have := (run_inv h hs ins hwf).2 p hp
  exact ⟨this.pos, this.ctr, this.enc⟩

/-- C89, the frame: when a piece with the end flag has been read, it is the last one, the frame's `W*H` pixels were taken,
the bits of the pieces are exactly the code of these pixels, with nothing added, and they decode to the pixels. -/
theorem C89_frame (h : CoreSetup c T) (hbd : c.int1.bd ≤ 15) (s : Int2) (hs : Start2 c s) (ins : List Int2In)
    (hwf : Int2.Wf c ins) (p : Code) (hp : p ∈ Int2.pieces c s ins) (he : p.endd = true) :
    (∃ a, Int2.pieces c s ins = a ++ [p]) ∧ (Int2.taken c s ins).length = c.int1.W * c.int1.H ∧
    pieceBits ((Int2.pieces c s ins).map sized) = encode T c.int1.bd c.int1.W (Int2.taken c s ins) ∧
    decode T (c.int1.bd + 1) c.int1.bd c.int1.W (c.int1.W * c.int1.H) [] (pieceBits ((Int2.pieces c s ins).map sized)) =
      some (Int2.taken c s ins, []) := by
  obtain ⟨a, b, hab⟩ := List.append_of_mem hp
  obtain ⟨h1, h2, h3, h4⟩ := ended h hs ins hwf hab he
  refine ⟨⟨a, by rw [hab, h1]⟩, h2, h3, ?_⟩
  have hb := h.legal.frame.bd2
  have := decode_encode (n := c.int1.bd + 1) (W := c.int1.W) h.table (by omega) (by omega) hbd h.ok.int1.W4
    (Int2.taken c s ins) h4 []
  rw [h2, List.append_nil] at this
  rw [h3, this]

/-- C89: no more pixels than a frame has are taken. -/
theorem C89_no_pixel_after_frame (h : CoreSetup c T) (s : Int2) (hs : Start2 c s) (ins : List Int2In) (hwf : Int2.Wf c ins) :
    (Int2.taken c s ins).length ≤ c.int1.W * c.int1.H ∧
    ((Int2.taken c s ins).length = c.int1.W * c.int1.H → (Int2.run c s ins).nready = true) := by
  obtain ⟨⟨k, its, hi⟩, _⟩ := run_inv h hs ins hwf
  have hl := hi.int1.hlen
  rw [← frame_len h, hl]
  refine ⟨Nat.mul_le_mul_left _ hi.kle, fun he => ?_⟩
  have hps : 0 < c.int1.ps := by rcases h.legal.frame.pixels with e | e | e <;> omega
  have hk := Nat.eq_of_mul_eq_mul_left hps he
  simp [Int2.nready, hi.endN, hk]

/-- C89: a piece that is shown and not read stays unchanged. -/
theorem C89_piece_stable (h : CoreSetup c T) (s : Int2) (hs : Start2 c s) (ins : List Int2In) (i : Int2In)
    (hwf : Int2.Wf c (ins ++ [i])) (hl : i.latch = false) (hv : (Int2.run c s ins).valid = true) :
    (Int2.run c s (ins ++ [i])).valid = true ∧ (Int2.run c s (ins ++ [i])).out c = (Int2.run c s ins).out c := by
  obtain ⟨⟨k, its, hi⟩, _⟩ := run_inv h hs ins (fun j hj => hwf j (by simp [hj]))
  rw [Int2.run_append]
  generalize Int2.run c s ins = t at *
  show (t.step c i.pixels i.valid i.latch).valid = true ∧ (t.step c i.pixels i.valid i.latch).out c = _
  have hr : t.cfifo.readable = true := hv
  have hr' : (t.step c i.pixels i.valid i.latch).cfifo.readable = true := by
    rw [hl]
    apply Live2.fifo_shows
    · unfold Fifo.level; rw [hr]; simp
    · rfl
  refine ⟨hr', ?_⟩
  have hc := Fifo.contents_step hi.cinv t.conv.valid (Code.pack c.conv t.conv.out) i.latch
  rw [hl, Bool.and_false, if_neg (by decide), List.drop_zero, Fifo.contents_readable hr] at hc
  have hc2 := Fifo.contents_readable (depth := c.cdepth) hr'
  have e : (t.step c i.pixels i.valid i.latch).cfifo = t.cfifo.step c.cdepth t.conv.valid (Code.pack c.conv t.conv.out) false := by
    rw [hl]; rfl
  rw [e, hc] at hc2
  simp only [List.cons_append, List.cons.injEq] at hc2
  simp only [Int2.out, e]
  rw [← hc2.1]

/-- C89, progress: if pixels are offered again and again and pieces are read again and again, the frame ends. -/
theorem C89_always_ends (h : CoreSetup c T) (s : Int2) (hs : Start2 c s) (u : Nat → Int2In)
    (hwf : ∀ t, (u t).valid = true → (u t).pixels.length = c.int1.ps ∧ ∀ x ∈ (u t).pixels, x < 2 ^ c.int1.bd)
    (hprod : ∀ n, ∃ m, n ≤ m ∧ (u m).valid = true) (hcons : ∀ n, ∃ m, n ≤ m ∧ (u m).latch = true) :
    ∃ t, ∃ p ∈ Int2.pieces c s ((List.range t).map u), p.endd = true := by
  obtain ⟨t, ht⟩ := Live2.end_reached h.ok hs hwf hprod hcons
  exact ⟨t, mem_flatOf_none.1 ht⟩

/-- Non-vacuity: a frame of two rows of four pixels, read with a pause in every third cycle. -/
example : ∃ p ∈ Int2.pieces tinyCore (Int2.reset tinyCore (Int3.init tinyCore).int2.kept)
    ((List.range 60).map fun n => ⟨[n % 16], true, n % 3 != 0⟩), p.endd = true := by decide +kernel

example : CoreSetup tinyCore defaultTable ∧ Start2 tinyCore (Int2.reset tinyCore (Int3.init tinyCore).int2.kept) :=
  ⟨default_setup (by decide) rfl, _, ⟨by decide, by decide, by decide⟩, rfl⟩

end Props.Pieces
