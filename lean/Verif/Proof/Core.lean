/- Consequences for runs of the core from reset. -/
import Verif.Proof.Int3
import Verif.Spec.Frame

set_option autoImplicit false

namespace Model
open Spec

/-- What the constructors assert about a core configuration, with a legal frame
(lj92_pipeline_fifo.py:43-45, converter.py:46-51, converter_fifo.py:44-51,
vbits_to_cbits.py:318-319, integration_3.py:13-15). -/
structure CoreLegal (c : CoreCfg) : Prop where
  frame : Legal c.int1.bd c.int1.ps c.int1.W c.int1.H
  depth : 25 ≤ c.depth
  conv1 : 1 ≤ c.conv
  convT : c.conv ≤ c.total
  cdepth : c.csteps + 3 < c.cdepth
  out : 1 ≤ c.out
  buf : c.conv + c.out ≤ c.buf

instance (c : CoreCfg) : Decidable (CoreLegal c) :=
  decidable_of_iff (Legal c.int1.bd c.int1.ps c.int1.W c.int1.H ∧ 25 ≤ c.depth ∧ 1 ≤ c.conv ∧
      c.conv ≤ c.total ∧ c.csteps + 3 < c.cdepth ∧ 1 ≤ c.out ∧ c.conv + c.out ≤ c.buf)
    ⟨fun ⟨a, b, d, e, f, g, h⟩ => ⟨a, b, d, e, f, g, h⟩, fun ⟨a, b, d, e, f, g, h⟩ => ⟨a, b, d, e, f, g, h⟩⟩

theorem legal_ok {c : Int1Cfg} {T : Table} (h : Legal c.bd c.ps c.W c.H)
    (hm : MemRep c.bd c.mem T) : Int1Ok c (c.W / c.ps) T := by
  obtain ⟨hps, h2, h16, hd, hW4, hW2, hW16, hH1, hH16, hsz⟩ := h
  have hW : c.W = c.ps * (c.W / c.ps) := (Nat.mul_div_cancel' hd).symm
  have hpos : 0 < c.ps := by omega
  refine ⟨hps, h2, h16, hW, hW4, ⟨hpos, ?_, hH1, ?_, by omega, hH16⟩, hm⟩
  · rw [Nat.le_div_iff_mul_le hpos]; omega
  · rcases hsz with h | h
    · exact Or.inl h
    · exact Or.inr (by rw [Nat.le_div_iff_mul_le hpos]; omega)

theorem prefixFree_ne_nil {T : Table} {n : Nat} (h : PrefixFree T n) (hn : 2 ≤ n) {s : Nat} (hs : s < n) :
    T s ≠ [] := by
  intro h0
  have h1 := h s 0 hs (by omega) (by rw [h0]; exact List.nil_prefix)
  have h2 := h s 1 hs (by omega) (by rw [h0]; exact List.nil_prefix)
  omega

theorem legal_coreOk {c : CoreCfg} {T : Table} (h : CoreLegal c) (hm : MemRep c.int1.bd c.int1.mem T)
    (hT : PrefixFree T (c.int1.bd + 1)) : CoreOk c (c.int1.W / c.int1.ps) T := by
  have := h.frame.bd2
  exact ⟨legal_ok h.frame hm, fun s hs => prefixFree_ne_nil hT (by omega) (by omega), h.depth, h.conv1,
    h.convT, h.cdepth, h.out, h.buf⟩

/-- A state of the core right after reset (or power-up): registers at their reset values,
arbitrary contents of the FIFO memories and of the memory read registers. -/
def AfterReset (c : CoreCfg) (s : Int3) : Prop :=
  ∃ m : Kept, m.Ok c ∧ s = Int3.reset c m

theorem afterReset_init (c : CoreCfg) : AfterReset c (Int3.init c) :=
  ⟨_, ⟨by simp, by simp, by simp⟩, rfl⟩

theorem run_from_reset {c : CoreCfg} {C : Nat} {T : Table} (hok : CoreOk c C T) {s : Int3}
    (hs : AfterReset c s) {ins : List CoreIn} (hwf : Int3.Wf c ins) :
    ∃ k, Int3.Inv c C T (Int3.accepted c s ins) k (Int3.run c s ins) (Int3.delivered c s ins) := by
  obtain ⟨m, hm, rfl⟩ := hs
  obtain ⟨k, h⟩ := Int3.run_ok hok ins (Int3.inv_reset hok hm) hwf
  exact ⟨k, by simpa using h⟩

theorem Int3.inv_len {c : CoreCfg} {C : Nat} {T : Table} {hist : List Nat} {k : Nat} {s : Int3}
    {sent : List (Nat × Bool)} (h : Int3.Inv c C T hist k s sent) : hist.length = c.int1.ps * k := by
  obtain ⟨_, _, h, _⟩ := h
  exact h.int1.hlen

theorem Int3.inv_bound {c : CoreCfg} {C : Nat} {T : Table} {hist : List Nat} {k : Nat} {s : Int3}
    {sent : List (Nat × Bool)} (h : Int3.Inv c C T hist k s sent) : ∀ x ∈ hist, x < 2 ^ c.int1.bd := by
  obtain ⟨_, _, h, _⟩ := h
  exact h.int1.hbound

theorem run_append (c : CoreCfg) (a b : List CoreIn) : ∀ s, Int3.run c s (a ++ b) = Int3.run c (Int3.run c s a) b := by
  induction a with
  | nil => intro s; rfl
  | cons i a ih => intro s; exact ih _

theorem accepted_append (c : CoreCfg) (a b : List CoreIn) :
    ∀ s, Int3.accepted c s (a ++ b) = Int3.accepted c s a ++ Int3.accepted c (Int3.run c s a) b := by
  induction a with
  | nil => intro s; rfl
  | cons i a ih => intro s; simp [Int3.accepted, Int3.run, ih]

theorem delivered_append (c : CoreCfg) (a b : List CoreIn) :
    ∀ s, Int3.delivered c s (a ++ b) = Int3.delivered c s a ++ Int3.delivered c (Int3.run c s a) b := by
  induction a with
  | nil => intro s; rfl
  | cons i a ih => intro s; simp [Int3.delivered, Int3.run, ih]

end Model
