import Verif.Spec.GmmNet
import Verif.Props.GmmProc
import Verif.Props.GmmPdu
import Mathlib.Tactic.FinCases
import Mathlib.Data.Fintype.Basic
/-!
# C153 to C157: messages of the network
-/
namespace Verif.Props
open Verif Verif.Gmm Verif.Gsm
open Verif.Spec.Gmm (NetMsg halves tvOpt ptmsiIdentity value24)

theorem halves_toNat (lo hi : Nat) : (halves lo hi).toNat = lo % 16 + 16 * (hi % 16) := by
  unfold halves
  rw [UInt8.toNat_ofNat']
  omega

/-- A GMM message reaches the handler of its type. -/
theorem rx_gmm {cfg : GmmCfg} {ok : GmmOut → Bool} {g : Gmme} {t : UInt8} {l : Octets} {r : GmmStep}
    (h : gmmStep cfg ok g (.rx (0x08 :: t :: l)) = .ok r) :
    gmmRx cfg ok g (0x08 :: t :: l) t.toNat = .ok r := by
  change rxLlUnitdata cfg ok g (0x08 :: t :: l) = .ok r at h
  unfold rxLlUnitdata at h
  rw [if_neg (by simp)] at h
  have e0 : rd (0x08 :: t :: l) 0 = .ok 8 := rfl
  have e1 : rd (0x08 :: t :: l) 1 = .ok t.toNat := rfl
  rw [e0, e1] at h
  simpa using h

/-- The same for a message whose first two octets are known. -/
theorem rx_type {cfg : GmmCfg} {ok : GmmOut → Bool} {g : Gmme} {b : Octets} {mt : Nat} {r : GmmStep}
    (h0 : rd b 0 = .ok 8) (h1 : rd b 1 = .ok mt) (h : gmmStep cfg ok g (.rx b) = .ok r) :
    gmmRx cfg ok g b mt = .ok r := by
  change rxLlUnitdata cfg ok g b = .ok r at h
  unfold rxLlUnitdata at h
  have hl : ¬ b.length < 2 := by
    have := rd_safe_iff (b := b) (i := 1)
    have hs : (rd b 1).Safe := by rw [h1]; simp
    have := this.1 hs
    omega
  rw [if_neg hl, h0, h1] at h
  simpa using h

/-- The octets of P-TMSI REALLOCATION COMMAND at their places. -/
theorem realloc_octets (p fts : Nat) (sig : Option Octets) (a b c d e f : UInt8) :
    rd (NetMsg.ptmsiRealloc p [a, b, c, d, e, f] fts sig).encode 2 = .ok 5 ∧
    rdN (NetMsg.ptmsiRealloc p [a, b, c, d, e, f] fts sig).encode 3 5 = .ok (ptmsiIdentity p) ∧
    rdN (NetMsg.ptmsiRealloc p [a, b, c, d, e, f] fts sig).encode 8 6 = .ok [a, b, c, d, e, f] ∧
    rd (NetMsg.ptmsiRealloc p [a, b, c, d, e, f] fts sig).encode 14 = .ok (halves fts 0).toNat := by
  simp only [NetMsg.encode, ptmsiIdentity]
  generalize UInt8.ofNat (p / 0x1000000) = p1
  generalize UInt8.ofNat (p / 0x10000) = p2
  generalize UInt8.ofNat (p / 0x100) = p3
  generalize UInt8.ofNat p = p4
  generalize halves fts 0 = x
  generalize tvOpt 0x19 sig = l
  refine ⟨rfl, ?_, ?_, rfl⟩
  · unfold rdN
    rw [if_pos (by simp only [List.length_append, List.length_cons, List.length_nil]; omega)]
    rfl
  · unfold rdN
    rw [if_pos (by simp only [List.length_append, List.length_cons, List.length_nil]; omega)]
    rfl

theorem realloc_type (p fts : Nat) (sig : Option Octets) (ra : Octets) :
    rd (NetMsg.ptmsiRealloc p ra fts sig).encode 0 = .ok 8 ∧
    rd (NetMsg.ptmsiRealloc p ra fts sig).encode 1 = .ok 0x10 := by
  simp only [NetMsg.encode, List.cons_append]
  exact ⟨rfl, rfl⟩

/-- P-TMSI REALLOCATION COMMAND reaches its handler. -/
theorem rx_realloc {cfg : GmmCfg} {ok : GmmOut → Bool} {g : Gmme} {p fts : Nat} {sig : Option Octets} {ra : Octets}
    {r : GmmStep} (h : gmmStep cfg ok g (.rx (NetMsg.ptmsiRealloc p ra fts sig).encode) = .ok r) :
    rxPtmsiReall ok g (NetMsg.ptmsiRealloc p ra fts sig).encode = .ok r := by
  have := rx_type (realloc_type p fts sig ra).1 (realloc_type p fts sig ra).2 h
  generalize (NetMsg.ptmsiRealloc p ra fts sig).encode = b at this ⊢
  unfold gmmRx at this
  simpa using this

theorem auth_type (alg iv fts ref : Nat) (rand : Option Octets) (cksn : Option Nat) :
    rd (NetMsg.authRequest alg iv fts ref rand cksn).encode 0 = .ok 8 ∧
    rd (NetMsg.authRequest alg iv fts ref rand cksn).encode 1 = .ok 0x12 := by
  simp only [NetMsg.encode, List.cons_append]
  exact ⟨rfl, rfl⟩

/-- AUTHENTICATION AND CIPHERING REQUEST reaches its handler. -/
theorem rx_auth {cfg : GmmCfg} {ok : GmmOut → Bool} {g : Gmme} {alg iv fts ref : Nat} {rand : Option Octets}
    {cksn : Option Nat} {r : GmmStep}
    (h : gmmStep cfg ok g (.rx (NetMsg.authRequest alg iv fts ref rand cksn).encode) = .ok r) :
    rxAuthReq ok g (NetMsg.authRequest alg iv fts ref rand cksn).encode = .ok r := by
  have := rx_type (auth_type alg iv fts ref rand cksn).1 (auth_type alg iv fts ref rand cksn).2 h
  generalize (NetMsg.authRequest alg iv fts ref rand cksn).encode = b at this ⊢
  unfold gmmRx at this
  simpa using this

/-! ## C153: force to standby -/

/-- What Force to standby in a message asks for is done: the READY timer is stopped if it says so, and
otherwise left alone by a message that concerns it in no other way. -/
def StandbyDone (m : NetMsg) (g g' : Gmme) : Prop :=
  (m.fts = 1 → g'.run3314 = false) ∧ (m.fts ≠ 1 → m.Passing → g'.run3314 = g.run3314)

/-- **C153**, full statement.  In every history, for every message of the network. -/
def C153Statement : Prop :=
  ∀ cfg g t, GmmReach cfg g t → ∀ ok m r, NetMsg.WellFormed m → gmmStep cfg ok g (.rx m.encode) = .ok r →
    StandbyDone m g r.g

/-- The READY timer does not run. -/
def Off (g : Gmme) : Prop := g.run3314 = false

theorem t3312Start_run (g : Gmme) : (t3312Start g).run3314 = g.run3314 := by
  unfold t3312Start; split <;> rfl

theorem readyStop_off (g : Gmme) : Off (readyStop g) := by
  unfold readyStop Off
  split
  · rw [t3312Start_run]
  · rename_i h; simpa using h

theorem readyNegotiated_off {g : Gmme} (h : Off g) : Off (readyNegotiated g) := by
  unfold readyNegotiated Off
  split
  · rw [t3312Start_run]; exact readyStop_off g
  · exact h

theorem applySig_off {b : Octets} {ies : List Ie} {g h : Gmme} (p : Off g) (e : applySig b ies g = .ok h) :
    Off h := by
  unfold applySig at e
  split at e
  · obtain ⟨v, _, e⟩ := bind_eq_ok.1 e
    injection e with e; subst e; exact p
  · injection e with e; subst e; exact p

theorem applyReady_off {cfg : GmmCfg} {b : Octets} {ies : List Ie} {g h : Gmme} (p : Off g)
    (e : applyReady cfg b ies g = .ok h) : Off h := by
  unfold applyReady at e
  split at e
  · obtain ⟨v, _, e⟩ := bind_eq_ok.1 e
    injection e with e; subst e; exact readyNegotiated_off p
  · injection e with e; subst e; exact readyNegotiated_off p

theorem applyPtmsi_off {b : Octets} {ies : List Ie} {g h : Gmme} (p : Off g)
    (e : applyPtmsi b ies g = .ok (some h)) : Off h := by
  unfold applyPtmsi at e
  split at e
  · obtain ⟨v, _, e⟩ := bind_eq_ok.1 e
    injection e with e
    rw [Option.map_eq_some_iff] at e
    obtain ⟨q, _, rfl⟩ := e
    exact p
  · injection e with e; injection e with e; subst e; exact p

theorem attAccIes_off {cfg : GmmCfg} {b : Octets} {g : Gmme} {r : Gmme × Bool} (p : Off g)
    (e : attAccIes cfg b g = .ok r) : Off r.1 := by
  unfold attAccIes at e
  split at e
  · split at e
    · injection e with e; subst e; exact p
    · cases e
    · obtain ⟨g1, h1, e⟩ := bind_eq_ok.1 e
      obtain ⟨g2, h2, e⟩ := bind_eq_ok.1 e
      obtain ⟨o, h3, e⟩ := bind_eq_ok.1 e
      have s2 := applyReady_off (applySig_off p h1) h2
      cases o with
      | none => injection e with e; subst e; exact s2
      | some g3 => injection e with e; subst e; exact applyPtmsi_off s2 h3
  · injection e with e; subst e; exact p

theorem rauAccRest_off {cfg : GmmCfg} {b : Octets} {ies : List Ie} {g : Gmme} {r : Gmme × Bool}
    (p : Off g) (e : rauAccRest cfg b ies g = .ok r) : Off r.1 := by
  obtain ⟨g1, h1, e⟩ := bind_eq_ok.1 e
  obtain ⟨g2, h2, e⟩ := bind_eq_ok.1 e
  obtain ⟨g3, h3, e⟩ := bind_eq_ok.1 e
  injection e with e; subst e
  have p1 : Off g1 := by
    unfold applyNpdu at h1
    split at h1
    · obtain ⟨v, _, e⟩ := bind_eq_ok.1 h1
      injection e with e; subst e; exact p
    · injection h1 with e; subst e; exact p
  have p2 := applyReady_off p1 h2
  unfold applyPdpStatus at h3
  split at h3
  · obtain ⟨v, _, e⟩ := bind_eq_ok.1 h3
    injection e with e; subst e; exact p2
  · injection h3 with e; subst e; exact p2

theorem rauAccIes_off {cfg : GmmCfg} {b : Octets} {g : Gmme} {r : Gmme × Bool} (p : Off g)
    (e : rauAccIes cfg b g = .ok r) : Off r.1 := by
  unfold rauAccIes at e
  split at e
  · split at e
    · injection e with e; subst e; exact p
    · cases e
    · obtain ⟨g1, h1, e⟩ := bind_eq_ok.1 e
      obtain ⟨o, h2, e⟩ := bind_eq_ok.1 e
      cases o with
      | none => injection e with e; subst e; exact applySig_off p h1
      | some g2 =>
        obtain ⟨im, _, e⟩ := bind_eq_ok.1 e
        have s2 := applyPtmsi_off (applySig_off p h1) h2
        split at e
        · exact rauAccRest_off s2 e
        · injection e with e; subst e; exact s2
  · injection e with e; subst e; exact p

theorem fsm_run3314 {cfg : GmmCfg} {ok : GmmOut → Bool} {g : Gmme} {fe : FsmEv} {x : Gmme × List GmmOut}
    (h : gmmFsm cfg ok g fe = some x) : x.1.run3314 = g.run3314 := by
  unfold gmmFsm at h
  split at h <;> first | cases h | (injection h with h; subst h)
  all_goals first
    | rfl
    | (unfold startAttach; split
       · rfl
       · dsimp only; split <;> rfl)
    | (unfold startRau; dsimp only; split <;> rfl)
    | (unfold rauRejectedAct; split <;> rfl)

theorem dispatch_run3314 {cfg : GmmCfg} {ok : GmmOut → Bool} {g : Gmme} {pre : List GmmOut} {fe : FsmEv} :
    (dispatch cfg ok g pre fe).g.run3314 = g.run3314 := by
  unfold dispatch
  split
  · rename_i h; exact fsm_run3314 h
  · rfl

theorem submitThen_run3314 {cfg : GmmCfg} {ok : GmmOut → Bool} {g : Gmme} {outs : List GmmOut} {fe : FsmEv}
    {r : GmmStep} (h : submitThen cfg ok g outs fe = .ok r) : r.g.run3314 = g.run3314 := by
  unfold submitThen at h
  split at h
  · injection h with h; subst h; exact dispatch_run3314
  · injection h with h; subst h; rfl

theorem applyFixed_off (g : Gmme) (t : Nat) (ra : Octets) : Off (applyFixed g t true ra) := by
  unfold applyFixed Off
  rw [if_pos rfl]
  exact readyStop_off _

/-- The parts of an authentication do not concern the READY timer. -/
theorem authFinish_run3314 {ok : GmmOut → Bool} {g : Gmme} {s : Option Octets} :
    (authFinish ok g s).g.run3314 = g.run3314 := by
  unfold authFinish
  split
  · unfold authAnswer
    split <;> rfl
  · rfl

theorem authApply_run3314 {ok : GmmOut → Bool} {g : Gmme} {o2 o3 : Nat} {r : Option (Octets × Nat)} :
    (authApply ok g o2 o3 r).g.run3314 = (if o3 % 16 ≠ 0 then readyStop g else g).run3314 := by
  unfold authApply
  dsimp only
  generalize (if o3 % 16 ≠ 0 then readyStop g else g) = g1
  split
  · split <;> rfl
  · rw [authFinish_run3314]

/-- The optional part of AUTHENTICATION AND CIPHERING REQUEST is read. -/
theorem auth_parse (alg iv fts ref : Nat) (rand : Option Octets) (cksn : Option Nat)
    (hw : NetMsg.WellFormed (.authRequest alg iv fts ref rand cksn)) :
    ∃ ies, (if (NetMsg.authRequest alg iv fts ref rand cksn).encode.length > 4 then
      ieParse gmmIes (NetMsg.authRequest alg iv fts ref rand cksn).encode 4 else .ok []) = .ok ies := by
  obtain ⟨-, hr, hk⟩ := hw
  have hk8 : ∀ k : Fin 8, cksn = some k.val → ∃ ies,
      (if (NetMsg.authRequest alg iv fts ref rand cksn).encode.length > 4 then
      ieParse gmmIes (NetMsg.authRequest alg iv fts ref rand cksn).encode 4 else .ok []) = .ok ies := by
    intro k e
    subst e
    cases rand with
    | none => fin_cases k <;> exact ⟨_, rfl⟩
    | some x =>
      have hx := hr x rfl
      match x, hx with
      | [a0, a1, a2, a3, a4, a5, a6, a7, a8, a9, a10, a11, a12, a13, a14, a15], _ => fin_cases k <;> exact ⟨_, rfl⟩
  cases cksn with
  | some k => exact hk8 ⟨k, hk k rfl⟩ rfl
  | none =>
    cases rand with
    | none => exact ⟨[], rfl⟩
    | some x =>
      have hx := hr x rfl
      match x, hx with
      | [a0, a1, a2, a3, a4, a5, a6, a7, a8, a9, a10, a11, a12, a13, a14, a15], _ => exact ⟨_, rfl⟩

/-- The messages for which the code looks at the right half octet and the value asks for standby or does
not: all values in the accepting messages and IDENTITY REQUEST; the two defined values in
AUTHENTICATION AND CIPHERING REQUEST; elsewhere only the values that do not ask for it. -/
def StandbyRead : NetMsg → Prop
  | .attachAccept .. => True
  | .rauAccept .. => True
  | .identityRequest .. => True
  | .authRequest _ _ fts .. => fts ≤ 1
  | .ptmsiRealloc _ _ fts _ => fts ≠ 1
  | .detachAccept fts => fts ≠ 1
  | .rauReject _ fts _ => fts ≠ 1

/-- **C153** (partial), in all states of the entity. -/
theorem c153_standby_partial {cfg : GmmCfg} {ok : GmmOut → Bool} {g : Gmme} {m : NetMsg} {r : GmmStep}
    (hw : m.WellFormed) (hr : StandbyRead m) (h : gmmStep cfg ok g (.rx m.encode) = .ok r) :
    StandbyDone m g r.g := by
  cases m with
  | attachAccept result fts timer prio ra opts =>
    refine ⟨fun h1 => ?_, fun _ hp => hp.elim⟩
    obtain rfl : fts = 1 := h1
    have h := rx_gmm (l := [halves result 1, timer, prio] ++ ra ++ opts) h
    change rxAttAcc cfg ok g (NetMsg.attachAccept result 1 timer prio ra opts).encode = .ok r at h
    unfold rxAttAcc at h
    split at h
    · rename_i hl
      have := hw.2
      simp only [NetMsg.encode, List.length_append, List.length_cons, List.length_nil] at hl
      omega
    · obtain ⟨o, ho, h⟩ := bind_eq_ok.1 h
      have ho' : o = (halves result 1).toNat := by
        have e : rd (NetMsg.attachAccept result 1 timer prio ra opts).encode 2 = .ok (halves result 1).toNat := rfl
        rw [e] at ho; injection ho with ho; exact ho.symm
      obtain ⟨t, _, h⟩ := bind_eq_ok.1 h
      obtain ⟨ra', _, h⟩ := bind_eq_ok.1 h
      obtain ⟨x, hx, h⟩ := bind_eq_ok.1 h
      have hd : decide (o / 16 ≠ 0) = true := by
        rw [ho', halves_toNat]; exact decide_eq_true (by omega)
      rw [hd] at hx
      have p1 := attAccIes_off (applyFixed_off _ _ _) hx
      unfold attAccEnd at h
      split at h
      · rw [submitThen_run3314 h]; exact p1
      · injection h with h; subst h; exact p1
  | detachAccept fts => exact ⟨fun h1 => absurd h1 hr, fun _ hp => hp.elim⟩
  | rauReject cause fts opts => exact ⟨fun h1 => absurd h1 hr, fun _ hp => hp.elim⟩
  | rauAccept fts result timer ra opts =>
    refine ⟨fun h1 => ?_, fun _ hp => hp.elim⟩
    obtain rfl : fts = 1 := h1
    have h := rx_gmm (l := [halves 1 result, timer] ++ ra ++ opts) h
    change rxRauAcc cfg ok g (NetMsg.rauAccept 1 result timer ra opts).encode = .ok r at h
    unfold rxRauAcc at h
    split at h
    · rename_i hl
      have := hw.2
      simp only [NetMsg.encode, List.length_append, List.length_cons, List.length_nil] at hl
      omega
    · obtain ⟨o, ho, h⟩ := bind_eq_ok.1 h
      have ho' : o = (halves 1 result).toNat := by
        have e : rd (NetMsg.rauAccept 1 result timer ra opts).encode 2 = .ok (halves 1 result).toNat := rfl
        rw [e] at ho; injection ho with ho; exact ho.symm
      obtain ⟨t, _, h⟩ := bind_eq_ok.1 h
      obtain ⟨ra', _, h⟩ := bind_eq_ok.1 h
      obtain ⟨x, hx, h⟩ := bind_eq_ok.1 h
      have hd : decide (o % 16 ≠ 0) = true := by
        rw [ho', halves_toNat]; exact decide_eq_true (by omega)
      rw [hd] at hx
      have p1 := rauAccIes_off (applyFixed_off _ _ _) hx
      unfold rauAccEnd at h
      split at h
      · rw [submitThen_run3314 h]; exact p1
      · injection h with h; subst h; exact p1
  | identityRequest type fts =>
    have h := rx_gmm (l := [halves type fts]) h
    change rxIdReq ok g [0x08, 0x15, halves type fts] = .ok r at h
    unfold rxIdReq at h
    rw [if_neg (by simp)] at h
    have e : rd [0x08, 0x15, halves type fts] 2 = .ok (halves type fts).toNat := rfl
    rw [e, halves_toNat, Res.bind_ok] at h
    dsimp only at h
    have hf : fts < 8 := hw
    have hg : r.g = if (type % 16 + 16 * (fts % 16)) / 16 = 1 then readyStop g else g := by
      generalize (if (type % 16 + 16 * (fts % 16)) / 16 = 1 then readyStop g else g) = g1 at h ⊢
      split at h
      · injection h with h; subst h; rfl
      · injection h with h; subst h; rfl
    constructor
    · intro h1
      obtain rfl : fts = 1 := h1
      rw [hg, if_pos (by omega)]
      exact readyStop_off g
    · intro h1 _
      have h1 : fts ≠ 1 := h1
      rw [hg, if_neg (by omega)]
  | ptmsiRealloc p ra fts sig =>
    have hr : fts ≠ 1 := hr
    have h := rx_realloc h
    refine ⟨fun h1 => absurd h1 hr, fun _ _ => ?_⟩
    unfold rxPtmsiReall at h
    split at h
    · injection h with h; subst h; rfl
    · obtain ⟨n, _, h⟩ := bind_eq_ok.1 h
      split at h
      · injection h with h; subst h; rfl
      · obtain ⟨mi, _, h⟩ := bind_eq_ok.1 h
        split at h
        · injection h with h; subst h; rfl
        · obtain ⟨ra', _, h⟩ := bind_eq_ok.1 h
          obtain ⟨o, ho, h⟩ := bind_eq_ok.1 h
          have ho' : o = fts % 16 := by
            obtain ⟨-, hl, -⟩ := hw
            match ra, hl with
            | [a, b, c, d, e, f], _ =>
              rw [(realloc_octets p fts sig a b c d e f).2.2.2, halves_toNat] at ho
              injection ho with ho
              omega
          rw [if_neg (by omega)] at h
          unfold ptmsiReallEnd at h
          split at h
          · injection h with h; subst h; rfl
          · injection h with h; subst h; rfl
  | authRequest alg iv fts ref rand cksn =>
    obtain ⟨ies, hp⟩ := auth_parse alg iv fts ref rand cksn hw
    have h := rx_auth h
    have e2 : rd (NetMsg.authRequest alg iv fts ref rand cksn).encode 2 = .ok (halves alg iv).toNat := rfl
    have e3 : rd (NetMsg.authRequest alg iv fts ref rand cksn).encode 3 = .ok (halves fts ref).toNat := rfl
    unfold rxAuthReq at h
    rw [if_neg (by simp [NetMsg.encode]), e2, e3, Res.bind_ok, Res.bind_ok] at h
    rw [hp] at h
    dsimp only at h
    obtain ⟨x, _, h⟩ := bind_eq_ok.1 h
    injection h with h; subst h
    have hf : fts ≤ 1 := hr
    constructor
    · intro h1
      obtain rfl : fts = 1 := h1
      rw [authApply_run3314, halves_toNat, if_pos (by omega)]
      exact readyStop_off g
    · intro h1 _
      have h1 : fts ≠ 1 := h1
      rw [authApply_run3314, halves_toNat, if_neg (by omega)]

/-- A registered mobile station with the READY timer running. -/
def readyMs : Gmme :=
  finalOf (gmmRun defaultCfg ms0 [⟨.attachReq prm0, yes⟩, ⟨.rx attAccMsg, yes⟩, ⟨.llcTransmitted, yes⟩])

theorem readyMs_reach : ∃ t, GmmReach defaultCfg readyMs t :=
  ⟨_, reach0 (l := [⟨.attachReq prm0, yes⟩, ⟨.rx attAccMsg, yes⟩, ⟨.llcTransmitted, yes⟩]) (by decide +kernel)⟩

/-- Such a message stops the timer of such a mobile station. -/
example : (∃ t, GmmReach defaultCfg readyMs t) ∧ readyMs.st = .reg ∧ readyMs.run3314 = true ∧
    (NetMsg.identityRequest 1 1).WellFormed ∧ StandbyRead (.identityRequest 1 1) ∧
    ∃ r, gmmStep defaultCfg yes readyMs (.rx (NetMsg.identityRequest 1 1).encode) = .ok r ∧ r.g.run3314 = false :=
  ⟨readyMs_reach, by decide +kernel, by decide +kernel, (by decide : 1 < 8), trivial, _, rfl, by decide +kernel⟩

/-- **C153 is violated**: DETACH ACCEPT, ROUTING AREA UPDATE REJECT and P-TMSI REALLOCATION COMMAND have
Force to standby in the lower half octet, and the code looks at the upper one: no such message ever stops
the READY timer. -/
theorem c153_never {cfg : GmmCfg} {ok : GmmOut → Bool} {g : Gmme} {r : GmmStep} (hg : g.run3314 = true) :
    (∀ fts, gmmStep cfg ok g (.rx (NetMsg.detachAccept fts).encode) = .ok r → r.g.run3314 = true) ∧
    (∀ cause fts opts, gmmStep cfg ok g (.rx (NetMsg.rauReject cause fts opts).encode) = .ok r →
      r.g.run3314 = true) ∧
    (∀ p ra fts sig, ra.length = 6 → gmmStep cfg ok g (.rx (NetMsg.ptmsiRealloc p ra fts sig).encode) = .ok r →
      r.g.run3314 = true) := by
  refine ⟨fun fts h => ?_, fun cause fts opts h => ?_, fun p ra fts sig hl h => ?_⟩
  · have h := rx_gmm (l := [halves fts 0]) h
    change rxDetachAcc cfg ok g [0x08, 0x06, halves fts 0] = .ok r at h
    unfold rxDetachAcc at h
    rw [if_neg (by simp)] at h
    have e : rd [0x08, 0x06, halves fts 0] 2 = .ok (halves fts 0).toNat := rfl
    rw [e, halves_toNat, Res.bind_ok] at h
    rw [if_neg (by omega)] at h
    rw [submitThen_run3314 h]
    exact hg
  · have h := rx_gmm (l := [cause, halves fts 0] ++ opts) h
    change rxRauRej cfg ok g (NetMsg.rauReject cause fts opts).encode = .ok r at h
    unfold rxRauRej at h
    have e2 : rd (NetMsg.rauReject cause fts opts).encode 2 = .ok cause.toNat := rfl
    have e3 : rd (NetMsg.rauReject cause fts opts).encode 3 = .ok (halves fts 0).toNat := rfl
    rw [if_neg (by simp [NetMsg.encode]), e2, e3, Res.bind_ok, Res.bind_ok, halves_toNat] at h
    rw [if_neg (by omega : ¬ (fts % 16 + 16 * (0 % 16)) / 16 = 1)] at h
    dsimp only at h
    split at h
    · cases h
    · injection h with h; subst h
      exact (dispatch_run3314 (pre := [])).trans hg
  · have h := rx_realloc h
    unfold rxPtmsiReall at h
    split at h
    · injection h with h; subst h; exact hg
    · obtain ⟨n, _, h⟩ := bind_eq_ok.1 h
      split at h
      · injection h with h; subst h; exact hg
      · obtain ⟨mi, _, h⟩ := bind_eq_ok.1 h
        split at h
        · injection h with h; subst h; exact hg
        · obtain ⟨ra', _, h⟩ := bind_eq_ok.1 h
          obtain ⟨o, ho, h⟩ := bind_eq_ok.1 h
          have ho' : o = fts % 16 := by
            match ra, hl with
            | [a, b, c, d, e, f], _ =>
              rw [(realloc_octets p fts sig a b c d e f).2.2.2, halves_toNat] at ho
              injection ho with ho
              omega
          rw [if_neg (by omega)] at h
          unfold ptmsiReallEnd at h
          split at h
          · injection h with h; subst h; exact hg
          · injection h with h; subst h; exact hg

theorem c153_violated : ¬ C153Statement := by
  intro h
  obtain ⟨t, ht⟩ := readyMs_reach
  have := (h _ _ t ht yes (.detachAccept 1) _ (by decide : 1 < 8) rfl).1 rfl
  exact absurd this (by decide +kernel)

/-! ## C154: reallocation of the P-TMSI -/

/-- What a reallocation has to lead to: the new identity, its local TLLI, the routing area and the
signature are in force; LLC and RLC/MAC are told, and P-TMSI REALLOCATION COMPLETE is sent under the new
TLLI. -/
def Reallocated (g : Gmme) (p : Nat) (ra : Octets) (sig : Option Octets) (r : GmmStep) : Prop :=
  r.rc = none ∧ r.g.ptmsi = p ∧ r.g.tlli = p % 2 ^ 30 + 3 * 2 ^ 30 ∧ r.g.ra = ra ∧
  (∀ a b c, sig = some [a, b, c] → r.g.ptmsiSig = value24 a b c) ∧ r.g.st = g.st ∧
  r.out = [.llgmmAssign g.tlli r.g.tlli g.gea g.kc, .gmmrrAssign g.tlli r.g.tlli p,
    .llUnitdata r.g.tlli [0x08, 0x11]]

/-- **C154**, full statement.  In every history, if the neighbours accept what they are given. -/
def C154Statement : Prop :=
  ∀ cfg g t, GmmReach cfg g t → ∀ p ra fts sig r, NetMsg.WellFormed (.ptmsiRealloc p ra fts sig) →
    gmmStep cfg yes g (.rx (NetMsg.ptmsiRealloc p ra fts sig).encode) = .ok r → Reallocated g p ra sig r

theorem be32_value {p : Nat} (h : p < 2 ^ 32) :
    (UInt8.ofNat (p / 0x1000000)).toNat * 0x1000000 + (UInt8.ofNat (p / 0x10000)).toNat * 0x10000 +
      (UInt8.ofNat (p / 0x100)).toNat * 0x100 + (UInt8.ofNat p).toNat = p := by
  simp only [UInt8.toNat_ofNat']
  omega

/-- **C154** (partial): without the optional signature. -/
theorem c154_realloc_partial {cfg : GmmCfg} {g : Gmme} {p fts : Nat} {ra : Octets} {r : GmmStep}
    (hw : NetMsg.WellFormed (.ptmsiRealloc p ra fts none))
    (h : gmmStep cfg yes g (.rx (NetMsg.ptmsiRealloc p ra fts none).encode) = .ok r) :
    Reallocated g p ra none r := by
  obtain ⟨hp, hl, -, -⟩ := hw
  have h := rx_realloc h
  match ra, hl with
  | [a, b, c, d, e, f], _ =>
    unfold rxPtmsiReall at h
    obtain ⟨e2, e3, e8, e14⟩ := realloc_octets p fts none a b c d e f
    have em : miDecodeTmsi (ptmsiIdentity p) = some p := by
      simp only [ptmsiIdentity, miDecodeTmsi]
      rw [if_pos (by decide), be32_value hp]
    rw [if_neg (by simp [NetMsg.encode, ptmsiIdentity, tvOpt]), e2, Res.bind_ok, if_neg (by decide), e3, Res.bind_ok, em] at h
    dsimp only at h
    rw [e8, e14, Res.bind_ok, Res.bind_ok, halves_toNat, if_neg (by omega)] at h
    injection h with h
    subst h
    refine ⟨rfl, rfl, ?_, rfl, fun a b c h => (by cases h), rfl, rfl⟩
    show localTlli p = _
    unfold localTlli
    omega

/-- Such a command is obeyed by a registered mobile station. -/
example : (∃ t, GmmReach defaultCfg readyMs t) ∧
    NetMsg.WellFormed (.ptmsiRealloc 0xc0ffee01 [0x32, 0xf4, 0x07, 0x00, 0x05, 0x00] 0 none) ∧
    ∃ r, gmmStep defaultCfg yes readyMs
      (.rx (NetMsg.ptmsiRealloc 0xc0ffee01 [0x32, 0xf4, 0x07, 0x00, 0x05, 0x00] 0 none).encode) = .ok r :=
  ⟨readyMs_reach, ⟨by decide, rfl, by decide, fun s h => (by cases h)⟩, _, rfl⟩

/-- **C154 is violated**: a command with a signature is refused by every mobile station; nothing is
stored, and the network gets no answer. -/
theorem c154_signature_refused {cfg : GmmCfg} {ok : GmmOut → Bool} {g : Gmme} {p fts : Nat} {ra s : Octets}
    (hw : NetMsg.WellFormed (.ptmsiRealloc p ra fts (some s))) :
    gmmStep cfg ok g (.rx (NetMsg.ptmsiRealloc p ra fts (some s)).encode) = .ok ⟨g, [], some .einval⟩ := by
  obtain ⟨hp, hl, -, hs⟩ := hw
  have hs := hs s rfl
  have hlen : (NetMsg.ptmsiRealloc p ra fts (some s)).encode.length ≠ 15 := by
    simp [NetMsg.encode, ptmsiIdentity, tvOpt, hl, hs]
  obtain ⟨t0, t1⟩ := realloc_type p fts (some s) ra
  generalize (NetMsg.ptmsiRealloc p ra fts (some s)).encode = b at hlen t0 t1 ⊢
  change rxLlUnitdata cfg ok g b = _
  have hl2 : ¬ b.length < 2 := by
    have := (rd_safe_iff (b := b) (i := 1)).1 (by rw [t1]; simp)
    omega
  unfold rxLlUnitdata
  rw [if_neg hl2, t0, t1]
  simp only [Res.bind_ok, Nat.reduceMod, ↓reduceIte]
  unfold gmmRx
  simp only [Nat.reduceEqDiff, ↓reduceIte]
  unfold rxPtmsiReall
  rw [if_pos hlen]
  rfl

theorem c154_violated : ¬ C154Statement := by
  intro h
  obtain ⟨t, ht⟩ := readyMs_reach
  have hw : NetMsg.WellFormed (.ptmsiRealloc 0xc0ffee01 [0x32, 0xf4, 0x07, 0x00, 0x05, 0x00] 0 (some [1, 2, 3])) :=
    ⟨by decide, rfl, by decide, fun s h => (by cases h; rfl)⟩
  have := (h _ _ t ht _ _ _ _ _ hw (c154_signature_refused hw)).1
  cases this

end Verif.Props
