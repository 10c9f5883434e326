/- The shipped Verilog netlist of the core with a 40-bit output stream (verilog_src/beta_integration_fifo_lvds.v): C74. -/
import Verif.Netlist.BetaLvds
import Verif.Props.NetStream
import Verif.Props.Lvds

set_option autoImplicit false

namespace Props
open Spec Model Netlist

/-- The input ports and a clock edge. -/
def lvNetStep (s : BetaLvds.top.S) (i : FnIn) : BetaLvds.top.S := BetaLvds.top.step s i.data i.valid i.rst i.ready

def lvNetRun : BetaLvds.top.S → List FnIn → BetaLvds.top.S
  | s, [] => s
  | s, i :: r => lvNetRun (lvNetStep s i) r

/-- The states after power-up and after an external reset, whatever happened before it. -/
def LvStart (s : BetaLvds.top.S) : Prop :=
  ∃ s0 pre, BetaLvds.top.Init s0 ∧ s = lvNetRun s0 pre ∧ (pre = [] ∨ ∃ p b, pre = p ++ [b] ∧ b.rst = true)

/-- The netlist with its source FIFO `q`, which shows its first word until `s_tready`. -/
structure LvNet where
  net : BetaLvds.top.S
  q : List Nat

def LvNet.step (s : LvNet) (i : StreamIn) : LvNet :=
  { net := lvNetStep s.net ⟨false, s.q.headD 0, !s.q.isEmpty, i.ready⟩
    q := (if BetaLvds.top.s_tready s.net then s.q.tail else s.q) ++ i.arrive }

def lvSysRun : LvNet → List StreamIn → LvNet
  | s, [] => s
  | s, i :: r => lvSysRun (s.step i) r

/-- 40-bit words transferred on the master stream: `m_tvalid` and `m_tready`. -/
def lvNetGiven : LvNet → List StreamIn → List Nat
  | _, [] => []
  | s, i :: r => (if BetaLvds.top.m_tvalid s.net && i.ready then [BetaLvds.top.m_tdata s.net] else []) ++ lvNetGiven (s.step i) r

/-- 16-bit words on the wires between the core and the packer, with the core's `end_out`: `valid_out` and not `busy_in`. -/
def lvNetWords : LvNet → List StreamIn → List (Nat × Bool)
  | _, [] => []
  | s, i :: r => (if BetaLvds.top.top_module_valid_out s.net && !BetaLvds.top.top_module_busy_in s.net then
      [(BetaLvds.top.top_module_data_out s.net,
        BetaLvds.top_module.end_out s.net.u_top_module (BetaLvds.top.top_module_busy_in s.net))] else []) ++ lvNetWords (s.step i) r

/-- From the state `s`, the cycles `hist` consist of `n` frames ended by FFFF, each followed by one more cycle, in which
the core resets itself. -/
inductive LvNetFrames (s : LvNet) : Nat → List StreamIn → Prop
  | zero : LvNetFrames s 0 []
  | next {n : Nat} {hist ins : List StreamIn} {i r : StreamIn} (h : LvNetFrames s n hist)
      (hno : ∀ x ∈ lvNetWords (lvSysRun s hist) ins, x.2 = false)
      (hw : (0xFFFF, true) ∈ lvNetWords (lvSysRun s hist) (ins ++ [i])) :
      LvNetFrames s (n + 1) (hist ++ (ins ++ [i]) ++ [r])

/-! ### Parts -/

/-- The core in this netlist as the core of beta_integration.v. -/
def lvCore (s : BetaLvds.top_module.S) : Beta.top.S :=
  ⟨s.u_auto_reset, s.u_fix_0xff, s.u_fix_0xff2, s.u_integration_3, s.u_markers⟩

theorem lvCore_step (s : BetaLvds.top_module.S) (f b : Bool) (x y : Nat) (v : Bool) :
    lvCore (BetaLvds.top_module.step s f b x y v) = Beta.top.step (lvCore s) f b x y v := rfl

/-- Registers of the netlist's unpacker as those of the model. -/
def absUnpackLv (s : BetaLvds.b64_b32.S) : Unpack2 :=
  { data := s.data_out, valid := s.valid_out, oBusy := s.o_busy, reg := s.reg, regValid := s.reg_valid, half := s.half_latched }

theorem unpackLv_net (s : BetaLvds.b64_b32.S) (d : Nat) (b v : Bool) :
    absUnpackLv (BetaLvds.b64_b32.step s d b false v) = (absUnpackLv s).step d v b := by
  obtain ⟨h, o, dat, rv, r, ob⟩ := s
  unfold absUnpackLv Unpack2.step Unpack2.take Unpack2.tobeInvalid
  cases h <;> cases o <;> cases rv <;> cases b <;> cases v <;> simp [netlist, slc, slice]

theorem unpackLv_rst (s : BetaLvds.b64_b32.S) (d : Nat) (b v : Bool) :
    absUnpackLv (BetaLvds.b64_b32.step s d b true v) = Unpack2.init := by
  simp [absUnpackLv, netlist, Unpack2.init]

/-- The FSM codes of the packer. -/
def packFsm : Nat → Pack40Fsm
  | 0 => .idle1 | 1 => .fill11 | 2 => .fill12 | 3 => .fill13 | 4 => .fill21 | 5 => .idle2 | _ => .fill22

def absPack (s : BetaLvds.b16_b40.S) : Pack40 :=
  { buffer1 := s.buffer1, valid1 := s.buffer1_valid, buffer2 := s.buffer2, valid2 := s.buffer2_valid, chs := s.buff_chs,
    temp8 := s.temp_8.toNat, valid := s.valid_out, oBusy := s.o_busy, fsm := packFsm s.fsm_state }

theorem put_eq (x l w v : Nat) : put x l w v = setSlice x l (l + w) v := by
  unfold put setSlice
  rw [Nat.add_sub_cancel_left, Nat.mul_comm (x / 2 ^ (l + w)), Nat.mul_comm (v % 2 ^ w)]
  omega

theorem ss_high (x d : Nat) : setSlice x 0 8 (slc d 8 8) = setSlice x 0 8 (d / 256) := by
  unfold setSlice slc
  rw [Nat.mod_mod]

theorem ss_low (x d : Nat) : setSlice x 32 40 (slc d 0 8) = setSlice x 32 40 d := by
  unfold setSlice slc
  rw [Nat.mod_mod, Nat.pow_zero, Nat.div_one]

theorem odd_toNat (d : Nat) : (decide (d % 2 = 1)).toNat = d % 2 := by
  rcases Nat.mod_two_eq_zero_or_one d with h | h <;> simp [h]

set_option maxHeartbeats 4000000 in
theorem pack_net (s : BetaLvds.b16_b40.S) (d : Nat) (v b r : Bool) (h : s.fsm_state < 7) :
    absPack (BetaLvds.b16_b40.step s v d false r b) = (absPack s).step d v b r ∧
    (BetaLvds.b16_b40.step s v d false r b).fsm_state < 7 := by
  obtain ⟨t8, b2, b1, st, ob, v2, v1, ch, vo⟩ := s
  have h : st < 7 := h
  have h7 : st = 0 ∨ st = 1 ∨ st = 2 ∨ st = 3 ∨ st = 4 ∨ st = 5 ∨ st = 6 := by omega
  rcases h7 with rfl | rfl | rfl | rfl | rfl | rfl | rfl <;> cases v <;> cases b <;> cases r <;> cases v1 <;> cases v2 <;>
    cases ch <;> cases vo <;>
    simp [absPack, packFsm, Pack40.step, Pack40.stepFsm, Pack40.stepOut, netlist, put_eq, ss_high, ss_low, odd_toNat]

theorem pack_net_rst (s : BetaLvds.b16_b40.S) (d : Nat) (v b : Bool) :
    absPack (BetaLvds.b16_b40.step s v d true true b) = Pack40.init ∧
    (BetaLvds.b16_b40.step s v d true true b).fsm_state < 7 := by
  simp [absPack, packFsm, netlist, Pack40.init]

/-! ### The whole netlist -/

def FnIn.lvNet (i : FnIn) (s : BetaLvds.top.S) : NetIn :=
  ⟨i.rst, s.u_b16_b40.o_busy, slc s.u_b64_b32.data_out 12 12, slc s.u_b64_b32.data_out 0 12, s.u_b64_b32.valid_out⟩

theorem lv_ok (i : FnIn) (s : BetaLvds.top.S) : (i.lvNet s).Ok := ⟨Nat.mod_lt _ (by decide), Nat.mod_lt _ (by decide)⟩

theorem lv_step_core (s : BetaLvds.top.S) (i : FnIn) :
    lvCore (lvNetStep s i).u_top_module = netStep (lvCore s.u_top_module) (i.lvNet s) := rfl

def lvNets : BetaLvds.top.S → List FnIn → List NetIn
  | _, [] => []
  | s, i :: r => i.lvNet s :: lvNets (lvNetStep s i) r

theorem lv_run_core (l : List FnIn) : ∀ s, lvCore (lvNetRun s l).u_top_module = netRun (lvCore s.u_top_module) (lvNets s l) := by
  induction l with
  | nil => intro s; rfl
  | cons i r ih => intro s; rw [lvNetRun, ih, lv_step_core]; rfl

theorem lvNets_ok (l : List FnIn) : ∀ s, ∀ i ∈ lvNets s l, i.Ok := by
  induction l with
  | nil => intro s i hi; cases hi
  | cons i r ih =>
    intro s j hj
    rcases List.mem_cons.1 hj with rfl | hj
    · exact lv_ok i s
    · exact ih _ j hj

theorem lvNets_append (l m : List FnIn) : ∀ s, lvNets s (l ++ m) = lvNets s l ++ lvNets (lvNetRun s l) m := by
  induction l with
  | nil => intro s; rfl
  | cons i r ih => intro s; simp [lvNets, lvNetRun, ih]

theorem lvNetRun_append (l m : List FnIn) : ∀ s, lvNetRun s (l ++ m) = lvNetRun (lvNetRun s l) m := by
  induction l with
  | nil => intro s; rfl
  | cons i r ih => intro s; exact ih _

/-- The automatic reset in the netlist. -/
theorem net_reset_step (s : Beta.top.S) (i : NetIn) (hf : i.fullRst = false) : (netStep s i).u_auto_reset.reset_out =
    if s.u_auto_reset.reset_out then false else
      if (netOut s i.busy).valid && !i.busy && (netOut s i.busy).endd then true else s.u_auto_reset.reset_out := by
  obtain ⟨f, b, x, y, v⟩ := i
  have hf : f = false := hf
  subst hf
  show (if Beta.top.integration_3_rst s false = true then false
    else if ((Beta.top.valid_out s b == true) && ((b == false) == true) && (Beta.top.end_out s b == true)) = true then true
      else s.u_auto_reset.reset_out) = _
  rw [Beta.top_rst, Bool.or_false, not_eq_false]
  show _ = if s.u_auto_reset.reset_out = true then false else
    if (Beta.top.valid_out s b && !b && Beta.top.end_out s b) = true then true else s.u_auto_reset.reset_out
  cases Beta.top.valid_out s b <;> cases Beta.top.end_out s b <;> cases b <;> rfl

/-- The automatic reset in the model. -/
theorem beta_reset_step (s : Cam) (i : CamIn) : (s.betaStep betaCore 6666000 i).resetOut =
    if s.resetOut then false else if (s.out i.busy).valid && !i.busy && (s.out i.busy).endd then true else s.resetOut := by
  unfold Cam.betaStep
  by_cases h : s.resetOut = true
  · rw [if_pos h, if_pos h]; rfl
  · rw [if_neg h, if_neg h]; rfl

/-- The netlist with its source behaves like the model with its source. -/
structure LvRel (s : LvNet) (t : LvdsSys) : Prop where
  core : Behaves (lvCore s.net.u_top_module) t.sys.fs.cam
  reset : s.net.u_top_module.u_auto_reset.reset_out = t.sys.fs.cam.resetOut
  unpack : absUnpackLv s.net.u_b64_b32 = t.sys.fs.unpack
  pack : absPack s.net.u_b16_b40 = t.sys.pack
  fsm : s.net.u_b16_b40.fsm_state < 7
  q : s.q = t.q

theorem lvStart_rel {s : BetaLvds.top.S} (h : LvStart s) (q : List Nat) : LvRel ⟨s, q⟩ ⟨.init betaCore, q⟩ := by
  obtain ⟨s0, pre, ⟨hp0, hu, h0⟩, rfl, hp⟩ := h
  have hi : Beta.top.Init (lvCore s0.u_top_module) := h0
  refine ⟨?_, ?_, ?_, ?_, ?_, rfl⟩
  · show Behaves (lvCore (lvNetRun s0 pre).u_top_module) _
    rw [lv_run_core]
    refine behaves_start hi _ (lvNets_ok pre s0) ?_
    rcases hp with rfl | ⟨p, b, rfl, hb⟩
    · exact Or.inl rfl
    · exact Or.inr ⟨lvNets s0 p, b.lvNet (lvNetRun s0 p), by rw [lvNets_append]; rfl, hb⟩
  · show (lvNetRun s0 pre).u_top_module.u_auto_reset.reset_out = false
    rcases hp with rfl | ⟨p, b, rfl, hb⟩
    · exact h0.1
    · rw [lvNetRun_append]
      obtain ⟨r, d, v, m⟩ := b
      have : r = true := hb
      subst this
      show (if Beta.top.integration_3_rst (lvCore (lvNetRun s0 p).u_top_module) true = true then false else _) = false
      rw [Beta.top_rst, Bool.or_true]; rfl
  · show absUnpackLv (lvNetRun s0 pre).u_b64_b32 = Unpack2.init
    rcases hp with rfl | ⟨p, b, rfl, hb⟩
    · obtain ⟨h1, h2, h3, h4, h5, h6⟩ := hu
      simp [absUnpackLv, Unpack2.init, lvNetRun, h1, h2, h3, h4, h5, h6]
    · rw [lvNetRun_append]
      obtain ⟨r, d, v, m⟩ := b
      have : r = true := hb
      subst this
      exact unpackLv_rst _ _ _ _
  · show absPack (lvNetRun s0 pre).u_b16_b40 = Pack40.init
    rcases hp with rfl | ⟨p, b, rfl, hb⟩
    · obtain ⟨h1, h2, h3, h4, h5, h6, h7, h8, h9⟩ := hp0
      simp [absPack, Pack40.init, packFsm, lvNetRun, h1, h2, h3, h4, h5, h6, h7, h8, h9]
    · rw [lvNetRun_append]
      obtain ⟨r, d, v, m⟩ := b
      have : r = true := hb
      subst this
      show absPack (BetaLvds.b16_b40.step _ _ _ true (Beta.top.integration_3_rst (lvCore (lvNetRun s0 p).u_top_module) true) _) = _
      rw [Beta.top_rst, Bool.or_true]
      exact (pack_net_rst _ _ _ _).1
  · show (lvNetRun s0 pre).u_b16_b40.fsm_state < 7
    rcases hp with rfl | ⟨p, b, rfl, hb⟩
    · rw [show (lvNetRun s0 []).u_b16_b40.fsm_state = 0 from hp0.2.2.2.1]; decide
    · rw [lvNetRun_append]
      obtain ⟨r, d, v, m⟩ := b
      have : r = true := hb
      subst this
      show (BetaLvds.b16_b40.step _ _ _ true (Beta.top.integration_3_rst (lvCore (lvNetRun s0 p).u_top_module) true) _).fsm_state < 7
      rw [Beta.top_rst, Bool.or_true]
      exact (pack_net_rst _ _ _ _).2

theorem lvRel_out {s : LvNet} {t : LvdsSys} (h : LvRel s t) :
    BetaLvds.top.top_module_busy_in s.net = t.sys.pack.oBusy ∧
    BetaLvds.top.top_module_data_out s.net = t.sys.camOut.data ∧
    BetaLvds.top.top_module_valid_out s.net = t.sys.camOut.valid ∧
    BetaLvds.top_module.end_out s.net.u_top_module (BetaLvds.top.top_module_busy_in s.net) = t.sys.camOut.endd := by
  have hb : s.net.u_b16_b40.o_busy = t.sys.pack.oBusy := by rw [← h.pack]; rfl
  have ho := behaves_out h.core t.sys.pack.oBusy
  have hco : t.sys.camOut = t.sys.fs.cam.out t.sys.pack.oBusy := by
    show t.sys.fs.cam.out (!(!t.sys.pack.oBusy)) = _
    rw [Bool.not_not]
  rw [hco]
  refine ⟨hb, ?_, ?_, ?_⟩
  · show BetaLvds.top_module.data_out _ s.net.u_b16_b40.o_busy = _
    rw [hb]; exact congrArg NetOut.data ho
  · show BetaLvds.top_module.valid_out _ s.net.u_b16_b40.o_busy = _
    rw [hb]; exact congrArg NetOut.valid ho
  · show BetaLvds.top_module.end_out _ s.net.u_b16_b40.o_busy = _
    rw [hb]; exact congrArg NetOut.endd ho

theorem lvRel_step {s : LvNet} {t : LvdsSys} (h : LvRel s t) (i : StreamIn) : LvRel (s.step i) (t.step betaCore 6666000 i) := by
  obtain ⟨o1, o2, o3, o4⟩ := lvRel_out h
  have ho := behaves_out h.core t.sys.pack.oBusy
  obtain ⟨hc, hr, hu, hp, hf, hq⟩ := h
  obtain ⟨⟨⟨tu, tc⟩, tp⟩, tq⟩ := t
  obtain ⟨sn, sq⟩ := s
  have hq : sq = tq := hq
  subst hq
  have hu : absUnpackLv sn.u_b64_b32 = tu := hu
  subst hu
  have hp : absPack sn.u_b16_b40 = tp := hp
  subst hp
  have hc : Behaves (lvCore sn.u_top_module) tc := hc
  have hr : sn.u_top_module.u_auto_reset.reset_out = tc.resetOut := hr
  have hn : BetaLvds.top_module.nready sn.u_top_module = tc.nready := congrArg NetOut.nready (behaves_out hc false)
  have hpk := pack_net sn.u_b16_b40 (BetaLvds.top.top_module_data_out sn) (BetaLvds.top.top_module_valid_out sn) (!i.ready)
    tc.resetOut hf
  have hps : (LvNet.step ⟨sn, sq⟩ i).net.u_b16_b40 = BetaLvds.b16_b40.step sn.u_b16_b40 (BetaLvds.top.top_module_valid_out sn)
      (BetaLvds.top.top_module_data_out sn) false tc.resetOut (!i.ready) := by
    show BetaLvds.b16_b40.step _ _ _ _ (Beta.top.integration_3_rst (lvCore sn.u_top_module) false) (i.ready == false) = _
    rw [Beta.top_rst, Bool.or_false, not_eq_false]
    show BetaLvds.b16_b40.step _ _ _ _ sn.u_top_module.u_auto_reset.reset_out _ = _
    rw [hr]; rfl
  have hco : Lvds.camOut ⟨⟨absUnpackLv sn.u_b64_b32, tc⟩, absPack sn.u_b16_b40⟩ = tc.out sn.u_b16_b40.o_busy := by
    show tc.out (!(!sn.u_b16_b40.o_busy)) = _
    rw [Bool.not_not]
  have hcam : (LvdsSys.step betaCore 6666000 ⟨⟨⟨absUnpackLv sn.u_b64_b32, tc⟩, absPack sn.u_b16_b40⟩, sq⟩ i).sys.fs.cam =
      tc.betaStep betaCore 6666000 (NetIn.cam (FnIn.lvNet ⟨false, sq.headD 0, !sq.isEmpty, i.ready⟩ sn)) := by
    show tc.betaStep betaCore 6666000 ⟨_, _, !(!sn.u_b16_b40.o_busy)⟩ = _
    rw [Bool.not_not]; rfl
  refine ⟨?_, ?_, ?_, ?_, ?_, ?_⟩
  · have := behaves_step hc (FnIn.lvNet ⟨false, sq.headD 0, !sq.isEmpty, i.ready⟩ sn) (lv_ok _ _) rfl
    rw [← lv_step_core] at this
    rw [hcam]
    exact this
  · rw [hcam]
    show (netStep (lvCore sn.u_top_module) (FnIn.lvNet ⟨false, sq.headD 0, !sq.isEmpty, i.ready⟩ sn)).u_auto_reset.reset_out = _
    rw [net_reset_step _ _ rfl]
    have ho : netOut (lvCore sn.u_top_module) sn.u_b16_b40.o_busy = netOf (tc.nready, tc.out sn.u_b16_b40.o_busy) := ho
    show (if sn.u_top_module.u_auto_reset.reset_out = true then false else
      if ((netOut (lvCore sn.u_top_module) sn.u_b16_b40.o_busy).valid && !sn.u_b16_b40.o_busy &&
        (netOut (lvCore sn.u_top_module) sn.u_b16_b40.o_busy).endd) = true then true
        else sn.u_top_module.u_auto_reset.reset_out) = _
    rw [ho, hr]
    rw [beta_reset_step]
    rfl
  · show absUnpackLv (BetaLvds.b64_b32.step sn.u_b64_b32 (sq.headD 0) (BetaLvds.top_module.nready sn.u_top_module) false (!sq.isEmpty)) = _
    rw [unpackLv_net, hn]
    rfl
  · rw [hps, hpk.1, o2, o3]
    rfl
  · rw [hps]; exact hpk.2
  · show (if (sn.u_b64_b32.o_busy == false) = true then sq.tail else sq) ++ _ = (if (!sn.u_b64_b32.o_busy) = true then sq.tail else sq) ++ _
    rw [not_eq_false]

theorem lvRel_run (l : List StreamIn) : ∀ {s : LvNet} {t : LvdsSys}, LvRel s t →
    LvRel (lvSysRun s l) (lvdsRun betaCore 6666000 t l) ∧ lvNetGiven s l = lvdsGiven betaCore 6666000 t l ∧
    lvNetWords s l = lvdsWords betaCore 6666000 t l := by
  induction l with
  | nil => intro s t h; exact ⟨h, rfl, rfl⟩
  | cons i r ih =>
    intro s t h
    obtain ⟨h1, h2, h3⟩ := ih (lvRel_step h i)
    obtain ⟨o1, o2, o3, o4⟩ := lvRel_out h
    have hd : BetaLvds.top.m_tdata s.net = t.sys.mData := by
      show (if (s.net.u_b16_b40.buff_chs == false) = true then s.net.u_b16_b40.buffer1 else s.net.u_b16_b40.buffer2) = t.sys.pack.data
      rw [← h.pack]
      show _ = if s.net.u_b16_b40.buff_chs = true then s.net.u_b16_b40.buffer2 else s.net.u_b16_b40.buffer1
      cases s.net.u_b16_b40.buff_chs <;> rfl
    have hv : BetaLvds.top.m_tvalid s.net = t.sys.mValid := by
      show s.net.u_b16_b40.valid_out = t.sys.pack.valid
      rw [← h.pack]; rfl
    refine ⟨h1, ?_, ?_⟩
    · rw [lvNetGiven, lvdsGiven, hd, hv, h2]
    · rw [lvNetWords, lvdsWords, o4, o1, o2, o3, h3]

theorem lvNet_frames {s : BetaLvds.top.S} (hs : LvStart s) {q : List Nat} {n : Nat} {hist : List StreamIn}
    (h : LvNetFrames ⟨s, q⟩ n hist) : LvdsFrames betaCore 6666000 q n hist := by
  induction h with
  | zero => exact .zero
  | @next n hist ins i r h hno hw ih =>
    have hr := (lvRel_run hist (lvStart_rel hs q)).1
    rw [(lvRel_run _ hr).2.2] at hno hw
    exact .next ih hno hw

/-- C74: the netlist of the core with a 40-bit output stream, after power-up or any external reset, over any number of
frames and any schedule on both sides: after `n` normally ended frames the 16-bit words the core gives to the packer up
to the next end marker FFFF decode to the pixels number `n*4096*3072` to `(n+1)*4096*3072-1` of those in the 64-bit words
of the source. -/
theorem C74_netlist_lvds_core_words (s : BetaLvds.top.S) (hs : LvStart s) (q : List Nat) {n : Nat} {hist : List StreamIn}
    (hn : LvNetFrames ⟨s, q⟩ n hist) (ins : List StreamIn) (i : StreamIn)
    (hno : ∀ x ∈ lvNetWords (lvSysRun ⟨s, q⟩ hist) ins, x.2 = false)
    (hw : (0xFFFF, true) ∈ lvNetWords (lvSysRun ⟨s, q⟩ hist) (ins ++ [i])) :
    let words := lvNetWords (lvSysRun ⟨s, q⟩ hist) (ins ++ [i])
    let stream := (q ++ (hist ++ (ins ++ [i])).flatMap (·.arrive)).flatMap wordPixels
    ∃ pad, decode defaultTable 13 12 4096 (4096 * 3072) []
      (byteBits (unstuff (wordBytes ((words.drop 8).take (words.length - 16))))) =
        some ((stream.drop (n * (4096 * 3072))).take (4096 * 3072), pad) := by
  intro words stream
  have hr := (lvRel_run hist (lvStart_rel hs q)).1
  rw [(lvRel_run _ hr).2.2] at hno hw
  have ew : words = _ := (lvRel_run (ins ++ [i]) hr).2.2
  rw [ew]
  exact C56_core_words beta_setup rfl rfl q (lvNet_frames hs hn) ins i hno hw

/-- C74: with a receiver that is ready in every cycle, the 40-bit words transferred in the first frame are, in order, the
five-byte groups of the bytes of the core's words, except at most two complete groups still inside and an incomplete last
one. -/
theorem C74_netlist_lvds_first_frame (s : BetaLvds.top.S) (hs : LvStart s) (q : List Nat) (ins : List StreamIn) (i : StreamIn)
    (hready : ∀ j ∈ ins ++ [i], j.ready = true)
    (hno : ∀ x ∈ lvNetWords ⟨s, q⟩ ins, x.2 = false) (hw : (0xFFFF, true) ∈ lvNetWords ⟨s, q⟩ (ins ++ [i])) :
    let words := lvNetWords ⟨s, q⟩ (ins ++ [i])
    let out := lvNetGiven ⟨s, q⟩ (ins ++ [i])
    out <+: groups5 (wordBytes words) ∧ (groups5 (wordBytes words)).length ≤ out.length + 2 ∧
    ∃ pad, decode defaultTable 13 12 4096 (4096 * 3072) []
      (byteBits (unstuff (wordBytes ((words.drop 8).take (words.length - 16))))) =
        some (((q ++ (ins ++ [i]).flatMap (·.arrive)).flatMap wordPixels).take (4096 * 3072), pad) := by
  intro words out
  have hr := lvStart_rel hs q
  rw [(lvRel_run _ hr).2.2] at hno hw
  have ew : words = _ := (lvRel_run (ins ++ [i]) hr).2.2
  have eo : out = _ := (lvRel_run (ins ++ [i]) hr).2.1
  rw [ew, eo]
  exact C56_first_frame beta_setup rfl rfl q ins i hready hno hw

example : LvStart BetaLvds.top.powerUp := ⟨_, [], BetaLvds.top.powerUp_init, rfl, Or.inl rfl⟩

end Props
