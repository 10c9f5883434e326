/- The receiver of the 40-bit stream gets the bytes between the frame markers. -/
import Verif.Spec.Receiver40
import Verif.Props.Pack40

set_option autoImplicit false

namespace Props.LvdsAll
open Spec Model Props

theorem stripFF_append (l : List Nat) (n : Nat) : stripFF (l ++ List.replicate n 0xFF) = stripFF l := by
  unfold stripFF
  rw [List.reverse_append, List.reverse_replicate]
  congr 1
  induction n with
  | zero => rfl
  | succ n ih => rw [List.replicate_succ, List.cons_append, List.dropWhile_cons_of_pos (by rfl), ih]

theorem bytesFF : bytesOf 5 0xFFFFFFFFFF = List.replicate 5 0xFF := by decide

theorem flatFF (n : Nat) : (List.replicate n 0xFFFFFFFFFF).flatMap (bytesOf 5) = List.replicate (5 * n) 0xFF := by
  induction n with
  | zero => rfl
  | succ n ih => rw [List.replicate_succ, List.flatMap_cons, ih, bytesFF, List.replicate_append_replicate]; congr 1; omega

theorem drop_front (d : Nat) (x : List Nat) : receive40 (List.replicate d 0xFFFFFFFFFF ++ x) = receive40 x := by
  unfold receive40
  congr 3
  induction d with
  | zero => rfl
  | succ n ih => rw [List.replicate_succ, List.cons_append, List.dropWhile_cons_of_pos (by rfl), ih]

theorem drop_back (x : List Nat) (n : Nat) : receive40 (x ++ List.replicate n 0xFFFFFFFFFF) = receive40 x := by
  induction x with
  | nil =>
    have := drop_front n []
    rw [List.append_nil] at this
    exact this
  | cons w x ih =>
    by_cases hw : w = 0xFFFFFFFFFF
    · subst hw
      have e := drop_front 1 x
      have e' := drop_front 1 (x ++ List.replicate n 0xFFFFFFFFFF)
      rw [List.replicate_one, List.singleton_append] at e e'
      rw [e, List.cons_append, e', ih]
    · unfold receive40
      rw [List.cons_append, List.dropWhile_cons_of_neg (by simpa using hw), List.dropWhile_cons_of_neg (by simpa using hw), ← List.cons_append,
        List.flatMap_append, flatFF, List.drop_append_of_le_length (by simp [List.flatMap_cons, bytesOf]), stripFF_append]

theorem bytes_groups : ∀ (l : List Nat), (∀ x ∈ l, x < 256) → ∃ rest, (groups5 l).flatMap (bytesOf 5) ++ rest = l ∧ rest.length < 5
  | a :: b :: c :: d :: e :: r, h => by
    obtain ⟨rest, h1, h2⟩ := bytes_groups r (fun x hx => h x (by simp [hx]))
    refine ⟨rest, ?_, h2⟩
    have ha := h a (by simp)
    have hb := h b (by simp)
    have hc := h c (by simp)
    have hd := h d (by simp)
    have he := h e (by simp)
    have : bytesOf 5 (a * 2 ^ 32 + b * 2 ^ 24 + c * 2 ^ 16 + d * 2 ^ 8 + e) = [a, b, c, d, e] := by
      simp only [bytesOf, List.cons.injEq]
      refine ⟨?_, ?_, ?_, ?_, ?_, trivial⟩ <;> omega
    simp only [groups5, List.flatMap_cons, this, List.append_assoc]
    rw [h1]
    rfl
  | [], _ => ⟨[], rfl, by decide⟩
  | [a], _ => ⟨[a], rfl, by simp⟩
  | [a, b], _ => ⟨[a, b], rfl, by simp⟩
  | [a, b, c], _ => ⟨[a, b, c], rfl, by simp⟩
  | [a, b, c, d], _ => ⟨[a, b, c, d], rfl, by simp⟩

/-- What the receiver gets of a frame whose bytes between the markers are `b`. -/
theorem receive40_groups (b : List Nat) (hlt : ∀ x ∈ b, x < 256) (hstart : b = [] ∨ ∃ x y r, b = x :: y :: r ∧ ¬ (x = 255 ∧ y = 255))
    (hlast : stripFF b = b) : receive40 (groups5 (List.replicate 16 0xFF ++ b ++ List.replicate 16 0xFF)) = b := by
  have h3 : groups5 (List.replicate 16 0xFF ++ b ++ List.replicate 16 0xFF) =
      List.replicate 3 0xFFFFFFFFFF ++ groups5 (0xFF :: (b ++ List.replicate 16 0xFF)) := by
    rw [List.append_assoc]; rfl
  rw [h3, drop_front]
  rcases hstart with rfl | ⟨x, y, r, rfl, hxy⟩
  · decide
  · have hw : groups5 (0xFF :: (x :: y :: r ++ List.replicate 16 0xFF)) =
        (groups5 (0xFF :: (x :: y :: r ++ List.replicate 16 0xFF))).dropWhile (· == 0xFFFFFFFFFF) := by
      have hx := hlt x (by simp)
      have hy := hlt y (by simp)
      obtain ⟨u, v, t, e⟩ : ∃ u v t, r ++ List.replicate 16 0xFF = u :: v :: t := by
        match r with
        | [] => exact ⟨_, _, _, rfl⟩
        | [u] => exact ⟨_, _, _, rfl⟩
        | u :: v :: t => exact ⟨_, _, _, rfl⟩
      have hu : u < 256 ∧ v < 256 := by
        have : ∀ z ∈ r ++ List.replicate 16 0xFF, z < 256 := by
          intro z hz
          rcases List.mem_append.1 hz with hz | hz
          · exact hlt z (by simp [hz])
          · rw [List.eq_of_mem_replicate hz]; decide
        rw [e] at this
        exact ⟨this u (by simp), this v (by simp)⟩
      simp only [List.cons_append, e, groups5]
      rw [List.dropWhile_cons_of_neg]
      simp only [beq_iff_eq]
      omega
    unfold receive40
    rw [← hw]
    obtain ⟨rest, e1, e2⟩ := bytes_groups (0xFF :: (x :: y :: r ++ List.replicate 16 0xFF)) (by
      intro z hz
      rcases List.mem_cons.1 hz with rfl | hz
      · decide
      · rcases List.mem_append.1 hz with hz | hz
        · exact hlt z hz
        · rw [List.eq_of_mem_replicate hz]; decide)
    generalize (groups5 (0xFF :: (x :: y :: r ++ List.replicate 16 0xFF))).flatMap (bytesOf 5) = P at e1
    have hP : P = 0xFF :: (x :: y :: r ++ List.replicate (16 - rest.length) 0xFF) := by
      have hs : List.replicate 16 0xFF = List.replicate (16 - rest.length) 0xFF ++ List.replicate rest.length 0xFF := by
        rw [List.replicate_append_replicate]; congr 1; omega
      rw [hs, ← List.append_assoc, ← List.cons_append] at e1
      exact (List.append_inj' e1 (by simp)).1
    rw [hP]
    show stripFF (x :: y :: r ++ List.replicate (16 - rest.length) 0xFF) = _
    rw [stripFF_append, hlast]

theorem stripFF_zero (l : List Nat) : stripFF (l ++ [0]) = l ++ [0] := by
  simp [stripFF]

theorem stripFF_stuff (l : List Nat) : stripFF (stuff l) = stuff l := by
  have key : ∀ l : List Nat, stuff l = [] ∨ ∃ p z, stuff l = p ++ [z] ∧ z ≠ 255 := by
    intro l
    induction l with
    | nil => exact Or.inl rfl
    | cons b l ih =>
      right
      unfold stuff
      split
      · rcases ih with h | ⟨p, z, h, hz⟩
        · rw [h]; exact ⟨[255], 0, rfl, by decide⟩
        · rw [h]; exact ⟨255 :: 0 :: p, z, rfl, hz⟩
      · rcases ih with h | ⟨p, z, h, hz⟩
        · rw [h]; exact ⟨[], b, rfl, by assumption⟩
        · rw [h]; exact ⟨b :: p, z, rfl, hz⟩
  rcases key l with h | ⟨p, z, h, hz⟩
  · rw [h]; rfl
  · rw [h]
    unfold stripFF
    rw [List.reverse_append, List.reverse_singleton, List.singleton_append, List.dropWhile_cons_of_neg (by simpa using hz)]
    simp

end Props.LvdsAll
