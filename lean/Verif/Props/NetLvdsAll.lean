/- Property theorems C74, continued: the netlist of the 40-bit stream core over any number of frames. -/
import Verif.Props.NetLvds
import Verif.Props.LvdsFrames

set_option autoImplicit false

namespace Props.LvdsAll
open Spec Model Props Netlist

/-- C74: the netlist of the core with a 40-bit output stream, after power-up or any external reset, with a receiver that is ready in every
cycle and over any number of frames: what a receiver makes of the 40-bit words transferred in frame number `n` (its reset cycle
included) decodes to the pixels number `n*4096*3072` to `(n+1)*4096*3072-1` of those in the 64-bit words of the source. -/
theorem C74_netlist_lvds_receiver (s : BetaLvds.top.S) (hs : LvStart s) (q : List Nat) {n : Nat} {hist : List StreamIn}
    (hn : LvNetFrames ⟨s, q⟩ n hist) (ins : List StreamIn) (i r : StreamIn) (hready : ∀ j ∈ hist ++ (ins ++ [i]), j.ready = true)
    (hno : ∀ x ∈ lvNetWords (lvSysRun ⟨s, q⟩ hist) ins, x.2 = false)
    (hw : (0xFFFF, true) ∈ lvNetWords (lvSysRun ⟨s, q⟩ hist) (ins ++ [i])) :
    let out := lvNetGiven (lvSysRun ⟨s, q⟩ hist) (ins ++ [i] ++ [r])
    let stream := (q ++ (hist ++ (ins ++ [i])).flatMap (·.arrive)).flatMap wordPixels
    ∃ pad, decode defaultTable 13 12 4096 (4096 * 3072) [] (byteBits (unstuff (receive40 out))) =
        some ((stream.drop (n * (4096 * 3072))).take (4096 * 3072), pad) := by
  intro out stream
  have hr := (lvRel_run hist (lvStart_rel hs q)).1
  rw [(lvRel_run _ hr).2.2] at hno hw
  have eo : out = _ := (lvRel_run (ins ++ [i] ++ [r]) hr).2.1
  rw [eo]
  exact C56_receiver beta_setup rfl rfl q (lvNet_frames hs hn) ins i r hready hno hw

-- A start state, the empty history and a ready receiver meet the first hypotheses; that a frame ends is C52/C55.
example (q : List Nat) : LvStart BetaLvds.top.powerUp ∧ LvNetFrames ⟨BetaLvds.top.powerUp, q⟩ 0 [] :=
  ⟨⟨_, [], BetaLvds.top.powerUp_init, rfl, Or.inl rfl⟩, .zero⟩

end Props.LvdsAll
