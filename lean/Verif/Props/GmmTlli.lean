import Verif.Gmm.Closed
import Verif.Props.GmmStack
/-!
# C97, C98: the TLLI of a mobile station
-/
namespace Verif.Props
open Verif Verif.Gmm Verif.Rlc

/-! ## C98: the TLLI messages are sent under -/

/-- C98: every message to the network is sent under the local TLLI of the P-TMSI in force, or the TLLI of
creation as long as no P-TMSI has been allocated; never under the value that stands for no TLLI. -/
def C98Statement : Prop :=
  ∀ cfg enabled ptmsi imsi rnd l g t, ptmsi < 0x100000000 → rnd < 0xffffffff →
    gmmRun cfg (gmmeAlloc enabled ptmsi imsi rnd) l = .ok (g, t) →
    ∀ o ∈ t, ∀ tlli pdu, GmmOut.llUnitdata tlli pdu ∈ o.out → tlli ≠ tlliUnassigned

/-- DETACH ACCEPT. -/
def detAccMsg : Octets := [0x08, 0x06, 0x00]

/-- Attach, detach and attach again: the second ATTACH REQUEST is sent under no TLLI. -/
theorem c98_violated : ¬ C98Statement := by
  intro h
  have e : okRun (gmmRun defaultCfg ms0 [⟨.attachReq prm0, yes⟩, ⟨.rx attAccMsg, yes⟩, ⟨.detachReq 1 false, yes⟩,
    ⟨.rx detAccMsg, yes⟩, ⟨.attachReq prm0, yes⟩]) = true := by decide +kernel
  have := h defaultCfg true 0x1234 [2, 4, 1] 0 _ _ _ (by decide) (by decide) (okRun_eq e)
  have h2 : (traceOf (gmmRun defaultCfg ms0 [⟨.attachReq prm0, yes⟩, ⟨.rx attAccMsg, yes⟩, ⟨.detachReq 1 false, yes⟩,
      ⟨.rx detAccMsg, yes⟩, ⟨.attachReq prm0, yes⟩])).any (fun o => o.out.any fun x => match x with
        | .llUnitdata t _ => t == tlliUnassigned
        | _ => false) = true := by decide +kernel
  obtain ⟨o, ho, hx⟩ := List.any_eq_true.1 h2
  obtain ⟨x, hx, he⟩ := List.any_eq_true.1 hx
  cases x with
  | llUnitdata tl b => exact this o ho tl b hx (by simpa using he)
  | _ => cases he

/-- A P-TMSI whose local TLLI is the value that stands for no TLLI is taken, too. -/
theorem c98_violated_ptmsi : localTlli 0x3fffffff = tlliUnassigned := by decide

/-- What a primitive to LLC says about the TLLI. -/
def TlliOf (g : Gmme) : GmmOut → Prop
  | .llUnitdata t _ => t = g.tlli
  | _ => True

theorem fsm_tlli {cfg : GmmCfg} {ok : GmmOut → Bool} {g : Gmme} {ev : FsmEv} {x : Gmme × List GmmOut}
    (h : gmmFsm cfg ok g ev = some x) : x.1.tlli = g.tlli ∧ ∀ o ∈ x.2, TlliOf g o := by
  have kd : (toDereg g).1.tlli = g.tlli ∧ ∀ o ∈ (toDereg g).2, TlliOf g o := by
    refine ⟨rfl, fun o ho => ?_⟩
    unfold toDereg at ho
    dsimp only at ho
    split at ho
    · rw [List.mem_singleton] at ho; subst ho; trivial
    · cases ho
  have ktx : ∀ o ∈ (txAttReq cfg g).toList, TlliOf g o := by
    intro o ho
    unfold txAttReq at ho
    split at ho
    · rw [Option.toList_some, List.mem_singleton] at ho; subst ho; rfl
    · cases ho
  have ka : (startAttach cfg ok g).1.tlli = g.tlli ∧ ∀ o ∈ (startAttach cfg ok g).2, TlliOf g o := by
    unfold startAttach
    split
    · exact ⟨rfl, fun o ho => by cases ho⟩
    · rename_i y hy
      refine ⟨by dsimp only; split <;> rfl, fun o ho => ?_⟩
      rw [List.mem_singleton] at ho; subst ho
      exact ktx o (by rw [hy]; exact List.mem_singleton.2 rfl)
  have kf : ∀ c, (attachFailed ok g c).1.tlli = g.tlli ∧ ∀ o ∈ (attachFailed ok g c).2, TlliOf g o := by
    intro c
    refine ⟨rfl, fun o ho => ?_⟩
    unfold attachFailed at ho
    rcases List.mem_append.1 ho with ho | ho
    · exact kd.2 o ho
    · rcases List.mem_append.1 (submit_sub ho) with ho | ho <;> split at ho <;> first
        | cases ho; done
        | (rw [List.mem_singleton] at ho; subst ho; first | trivial | (unfold estRejOut; split <;> trivial))
  have kn : ∀ o ∈ (attachDone ok g).2, TlliOf g o := by
    intro o ho
    unfold attachDone at ho
    rcases List.mem_append.1 (submit_sub ho) with ho | ho <;> split at ho <;> first
      | cases ho; done
      | (rw [List.mem_singleton] at ho; subst ho; trivial)
  have kr : (startRau cfg ok g).1.tlli = g.tlli ∧ ∀ o ∈ (startRau cfg ok g).2, TlliOf g o := by
    unfold startRau
    refine ⟨by dsimp only; split <;> rfl, fun o ho => ?_⟩
    simp only [List.mem_cons, List.not_mem_nil, or_false] at ho
    rcases ho with rfl | rfl
    · trivial
    · rfl
  have kj : ∀ c, (rauRejectedAct g c).1.tlli = g.tlli ∧ ∀ o ∈ (rauRejectedAct g c).2, TlliOf g o := by
    intro c; unfold rauRejectedAct; split
    · exact ⟨rfl, fun o ho => by cases ho⟩
    · exact kd
  unfold gmmFsm at h
  split at h <;> first | cases h | (injection h with h; subst h)
  all_goals first
    | exact kd
    | exact ka
    | exact kr
    | exact kj _
    | exact kf _
    | exact ⟨rfl, kn⟩
    | exact ⟨rfl, ktx⟩
    | (refine ⟨rfl, ?_⟩; intro o ho; cases ho; done)
    | (refine ⟨rfl, ?_⟩; intro o ho; unfold rauDone at ho; rw [List.mem_singleton] at ho; subst ho; trivial)

theorem dispatch_tlli {cfg : GmmCfg} {ok : GmmOut → Bool} {g : Gmme} {pre : List GmmOut} {ev : FsmEv}
    (hp : ∀ o ∈ pre, TlliOf g o) :
    (dispatch cfg ok g pre ev).g.tlli = g.tlli ∧
    ∀ o ∈ (dispatch cfg ok g pre ev).out, TlliOf (dispatch cfg ok g pre ev).g o := by
  unfold dispatch
  split
  · rename_i x y e
    obtain ⟨h1, h2⟩ := fsm_tlli e
    dsimp only at h1 h2 ⊢
    refine ⟨h1, fun o ho => ?_⟩
    have : TlliOf g o := by
      rcases List.mem_append.1 ho with ho | ho
      · exact hp o ho
      · exact h2 o ho
    cases o <;> first | trivial | exact this.trans h1.symm
  · exact ⟨rfl, hp⟩

/-- All messages of the step are sent under the TLLI the entity has then. -/
def Under (r : GmmStep) : Prop := ∀ o ∈ r.out, TlliOf r.g o

theorem rejected_under {g : Gmme} {outs : List GmmOut} {r : GmmStep} (hp : ∀ o ∈ outs, TlliOf g o)
    (h : rejected g outs = .ok r) : Under r := by
  unfold rejected at h
  injection h with h; subst h; exact hp

theorem dispatch_under {cfg : GmmCfg} {ok : GmmOut → Bool} {g : Gmme} {pre : List GmmOut} {ev : FsmEv}
    (hp : ∀ o ∈ pre, TlliOf g o) : Under (dispatch cfg ok g pre ev) := (dispatch_tlli hp).2

theorem submitThen_under {cfg : GmmCfg} {ok : GmmOut → Bool} {g : Gmme} {outs : List GmmOut} {ev : FsmEv}
    {r : GmmStep} (hp : ∀ o ∈ outs, TlliOf g o) (h : submitThen cfg ok g outs ev = .ok r) : Under r := by
  unfold submitThen at h
  split at h
  · injection h with h; subst h
    exact dispatch_under fun o ho => hp o (submit_sub ho)
  · exact rejected_under (fun o ho => hp o (submit_sub ho)) h

theorem under_nil {g : Gmme} : ∀ o ∈ ([] : List GmmOut), TlliOf g o := fun _ h => by cases h

theorem under_one {g : Gmme} {x : GmmOut} (h : TlliOf g x) : ∀ o ∈ [x], TlliOf g o := fun o ho => by
  rw [List.mem_singleton] at ho; subst ho; exact h

theorem t3316_tlli (g : Gmme) (cfg : GmmCfg) : (t3316Start cfg g).tlli = g.tlli := by
  unfold t3316Start; split <;> rfl

theorem authFinish_under {ok : GmmOut → Bool} {g : Gmme} {sres : Option Octets} : Under (authFinish ok g sres) := by
  unfold authFinish
  split
  · unfold authAnswer
    split
    · exact under_one (by trivial)
    · intro o ho
      simp only [submitOne, List.cons_append, List.nil_append, List.mem_cons, List.not_mem_nil, or_false] at ho
      rcases ho with rfl | rfl
      · trivial
      · rfl
  · intro o ho
    simp only [List.mem_cons, List.not_mem_nil, or_false] at ho
    rcases ho with rfl | rfl
    · trivial
    · rfl

theorem gmmRx_under {cfg : GmmCfg} {ok : GmmOut → Bool} {g : Gmme} {b : Octets} {mt : Nat} {r : GmmStep}
    (h : gmmRx cfg ok g b mt = .ok r) : Under r := by
  unfold gmmRx at h
  by_cases e : mt = 0x02
  · rw [if_pos e] at h
    unfold rxAttAcc at h
    split at h
    · exact rejected_under under_nil h
    · obtain ⟨o, _, h⟩ := bind_eq_ok.1 h
      obtain ⟨t, _, h⟩ := bind_eq_ok.1 h
      obtain ⟨ra, _, h⟩ := bind_eq_ok.1 h
      obtain ⟨x, hx, h⟩ := bind_eq_ok.1 h
      unfold attAccEnd at h
      split at h
      · refine submitThen_under ?_ h
        intro o ho
        simp only [List.mem_cons, List.not_mem_nil, or_false] at ho
        rcases ho with rfl | rfl | rfl
        · trivial
        · trivial
        · rfl
      · exact rejected_under under_nil h
  rw [if_neg e] at h
  clear e
  by_cases e : mt = 0x04
  · rw [if_pos e] at h
    unfold rxAttRej at h
    split at h
    · exact rejected_under under_nil h
    · obtain ⟨k, _, h⟩ := bind_eq_ok.1 h
      split at h
      · exact rejected_under under_nil h
      · cases h
      · injection h with h; subst h; exact dispatch_under under_nil
  rw [if_neg e] at h
  clear e
  by_cases e : mt = 0x06
  · rw [if_pos e] at h
    unfold rxDetachAcc at h
    split at h
    · exact rejected_under under_nil h
    · obtain ⟨o, _, h⟩ := bind_eq_ok.1 h
      refine submitThen_under ?_ h
      intro o ho
      simp only [List.mem_cons, List.not_mem_nil, or_false] at ho
      rcases ho with rfl | rfl <;> trivial
  rw [if_neg e] at h
  clear e
  by_cases e : mt = 0x09
  · rw [if_pos e] at h
    unfold rxRauAcc at h
    split at h
    · exact rejected_under under_nil h
    · obtain ⟨o, _, h⟩ := bind_eq_ok.1 h
      obtain ⟨t, _, h⟩ := bind_eq_ok.1 h
      obtain ⟨ra, _, h⟩ := bind_eq_ok.1 h
      obtain ⟨x, hx, h⟩ := bind_eq_ok.1 h
      unfold rauAccEnd at h
      split at h
      · refine submitThen_under ?_ h
        intro o ho
        rcases List.mem_append.1 ho with ho | ho
        · rcases List.mem_append.1 ho with ho | ho
          · simp only [List.mem_cons, List.not_mem_nil, or_false] at ho
            rcases ho with rfl | rfl <;> trivial
          · split at ho
            · rw [List.mem_singleton] at ho; subst ho; trivial
            · cases ho
        · rw [List.mem_singleton] at ho; subst ho; rfl
      · exact rejected_under under_nil h
  rw [if_neg e] at h
  clear e
  by_cases e : mt = 0x0b
  · rw [if_pos e] at h
    unfold rxRauRej at h
    split at h
    · injection h with h; subst h; exact (dispatch_tlli under_nil).2
    · obtain ⟨k, _, h⟩ := bind_eq_ok.1 h
      obtain ⟨o, _, h⟩ := bind_eq_ok.1 h
      dsimp only at h
      split at h
      · cases h
      · injection h with h; subst h; exact (dispatch_tlli under_nil).2
  rw [if_neg e] at h
  clear e
  by_cases e : mt = 0x15
  · rw [if_pos e] at h
    unfold rxIdReq at h
    split at h
    · exact rejected_under under_nil h
    · obtain ⟨o, _, h⟩ := bind_eq_ok.1 h
      dsimp only at h
      split at h
      · injection h with h; subst h; exact under_nil
      · injection h with h; subst h; exact under_one rfl
  rw [if_neg e] at h
  clear e
  by_cases e : mt = 0x10
  · rw [if_pos e] at h
    unfold rxPtmsiReall at h
    split at h
    · exact rejected_under under_nil h
    · obtain ⟨l, _, h⟩ := bind_eq_ok.1 h
      split at h
      · exact rejected_under under_nil h
      · obtain ⟨mi, _, h⟩ := bind_eq_ok.1 h
        split at h
        · exact rejected_under under_nil h
        · rename_i q _
          obtain ⟨ra, _, h⟩ := bind_eq_ok.1 h
          obtain ⟨o, _, h⟩ := bind_eq_ok.1 h
          generalize (if o / 16 = 1 then readyStop { updatePtmsi g q with ra := ra }
              else { updatePtmsi g q with ra := ra }) = g1 at h
          unfold ptmsiReallEnd at h
          have h2 : ∀ o ∈ [assignOut g1, rrAssignOut g1], TlliOf g1 o := by
            intro o ho
            simp only [List.mem_cons, List.not_mem_nil, or_false] at ho
            rcases ho with rfl | rfl <;> trivial
          split at h
          · injection h with h; subst h
            intro o ho
            rcases List.mem_append.1 ho with ho | ho
            · exact h2 o ho
            · rw [List.mem_singleton] at ho; subst ho; rfl
          · exact rejected_under (fun o ho => h2 o (submit_sub ho)) h
  rw [if_neg e] at h
  clear e
  by_cases e : mt = 0x12
  · rw [if_pos e] at h
    unfold rxAuthReq at h
    split at h
    · injection h with h; subst h; exact under_one rfl
    · obtain ⟨o2, _, h⟩ := bind_eq_ok.1 h
      obtain ⟨o3, h3, h⟩ := bind_eq_ok.1 h
      split at h
      · cases h
      · injection h with h; subst h; exact under_one rfl
      · obtain ⟨x, _, h⟩ := bind_eq_ok.1 h
        injection h with h; subst h
        unfold authApply
        dsimp only
        split
        · split
          · exact under_one (by trivial)
          · intro o ho
            simp only [List.mem_cons, List.not_mem_nil, or_false] at ho
            rcases ho with rfl | rfl
            · trivial
            · rfl
        · exact authFinish_under
  rw [if_neg e] at h
  clear e
  by_cases e : mt = 0x14
  · rw [if_pos e] at h
    injection h with h; subst h; exact dispatch_under under_nil
  rw [if_neg e] at h
  clear e
  by_cases e : mt = 0x20
  · rw [if_pos e] at h
    by_cases e' : b.length < 3
    · rw [if_pos e'] at h; exact rejected_under under_nil h
    · rw [if_neg e'] at h
      injection h with h; subst h; exact under_nil
  rw [if_neg e] at h
  clear e
  by_cases e : mt = 0x21
  · rw [if_pos e] at h
    unfold rxInfo at h
    split at h
    · cases h
    · exact rejected_under under_nil h
    · injection h with h; subst h; exact under_nil
  rw [if_neg e] at h
  exact rejected_under under_nil h

theorem txAttReq_under {cfg : GmmCfg} {g h : Gmme} (e : h.tlli = g.tlli) : ∀ o ∈ (txAttReq cfg g).toList, TlliOf h o := by
  intro o ho
  unfold txAttReq at ho
  split at ho
  · rw [Option.toList_some, List.mem_singleton] at ho; subst ho; exact e.symm
  · cases ho

theorem step_under {cfg : GmmCfg} {g : Gmme} {ok : GmmOut → Bool} {ev : GmmEv} {r : GmmStep}
    (h : gmmStep cfg ok g ev = .ok r) : Under r := by
  cases ev with
  | enable on => injection h with h; subst h; exact dispatch_under under_nil
  | attachReq q => injection h with h; subst h; exact dispatch_under under_nil
  | detachReq t q =>
    injection h with h; subst h
    intro o ho
    unfold detachReqAct at ho ⊢
    rcases List.mem_append.1 ho with ho | ho
    · exact (dispatch_tlli under_nil).2 o ho
    · rw [List.mem_singleton] at ho; subst ho; rfl
  | simAuthRsp a k rnd s kc =>
    injection h with h; subst h
    unfold simAuthRspAct
    split
    · exact authFinish_under
    · exact under_nil
  | establishReq s q =>
    injection h with h; subst h
    unfold establishReqAct
    dsimp only
    split
    · exact under_one (by trivial)
    · exact dispatch_under under_nil
  | smUnitdataReq b => injection h with h; subst h; exact under_one rfl
  | pageInd => injection h with h; subst h; exact under_one (by trivial)
  | llcTransmitted => injection h with h; subst h; exact under_nil
  | rx b =>
    change rxLlUnitdata cfg ok g b = .ok r at h
    unfold rxLlUnitdata at h
    split at h
    · exact rejected_under under_nil h
    · obtain ⟨pd, _, h⟩ := bind_eq_ok.1 h
      obtain ⟨mt, hm, h⟩ := bind_eq_ok.1 h
      split at h
      · exact gmmRx_under h
      · split at h
        · injection h with h; subst h; exact under_one (by trivial)
        · cases h
  | fsmTimer =>
    injection h with h; subst h
    unfold fsmTimeout
    split
    · split
      · exact dispatch_under under_nil
      · exact txAttReq_under rfl
    · split
      · exact dispatch_under under_nil
      · exact under_one rfl
    · exact under_nil
  | t3314 => injection h with h; subst h; exact under_nil
  | t3312 =>
    injection h with h; subst h
    unfold periodicUpdate
    split
    · exact (dispatch_tlli under_nil).2
    · exact under_nil
  | t3316 => injection h with h; subst h; exact under_nil

/-- C98, what holds: messages are sent under the TLLI the entity has by then, whatever happens. -/
theorem c98_current_partial {cfg : GmmCfg} {g : Gmme} {ok : GmmOut → Bool} {ev : GmmEv} {r : GmmStep}
    (h : gmmStep cfg ok g ev = .ok r) (tlli : Nat) (pdu : Octets) (ho : GmmOut.llUnitdata tlli pdu ∈ r.out) :
    tlli = r.g.tlli := step_under h _ ho

/-- The TLLI is that of creation, the local one of the P-TMSI in force, or none. -/
def TlliInv (ptmsi tlli : Nat) (g : Gmme) : Prop :=
  (g.ptmsi = ptmsi ∧ g.tlli = tlli) ∨ g.tlli = localTlli g.ptmsi ∨ g.tlli = tlliUnassigned

seal localTlli foreignTlli

theorem tlliInv_same {p t : Nat} {g h : Gmme} (i : TlliInv p t g) (h1 : h.ptmsi = g.ptmsi) (h2 : h.tlli = g.tlli) :
    TlliInv p t h := by unfold TlliInv; rw [h1, h2]; exact i

theorem fsm_names {cfg : GmmCfg} {ok : GmmOut → Bool} {g : Gmme} {ev : FsmEv} {x : Gmme × List GmmOut}
    (h : gmmFsm cfg ok g ev = some x) : x.1.ptmsi = g.ptmsi := by
  unfold gmmFsm at h
  split at h <;> first | cases h | (injection h with h; subst h)
  all_goals first
    | rfl
    | (unfold startAttach; split <;> first | rfl | (dsimp only; split <;> rfl))
    | (unfold startRau; dsimp only; split <;> rfl)
    | (unfold rauRejectedAct; split <;> rfl)

theorem tlli_closed (cfg : GmmCfg) (p t : Nat) : Closed cfg (TlliInv p t) where
  sig g n i := tlliInv_same i rfl rfl
  ready g n i := tlliInv_same i (readyNegotiated_names _).2.2.1 (readyNegotiated_names _).2.1
  ptmsi g n i := .inr (.inl rfl)
  ra g n i := tlliInv_same i rfl rfl
  fixed g t f ra i := tlliInv_same i (applyFixed_names _ _ _ _).2.2.1 (applyFixed_names _ _ _ _).2.1
  npdu g b v i := tlliInv_same i rfl rfl
  pdp g s i := tlliInv_same i rfl rfl
  standby g i := by
    unfold readyStop t3312Start
    split
    · split <;> exact tlliInv_same i rfl rfl
    · exact i
  sends g i := by
    unfold readyStart t3312Stop
    split
    · exact i
    · exact tlliInv_same i rfl rfl
  detached g i := .inr (.inr rfl)
  auth g a b c d e i _ _ := tlliInv_same i rfl rfl
  noAuth g i _ := tlliInv_same i rfl rfl
  kc g x i := tlliInv_same i rfl rfl
  stop3316 g i := tlliInv_same i rfl rfl
  start3316 g i := by unfold t3316Start; split <;> exact tlliInv_same i rfl rfl
  prm g q i := tlliInv_same i rfl rfl
  att g t w e j i := tlliInv_same i rfl rfl
  det g t i := tlliInv_same i rfl rfl
  sess g s i := tlliInv_same i rfl rfl
  attCount g n i := tlliInv_same i rfl rfl
  rauCount g n i := tlliInv_same i rfl rfl
  exp3314 g i _ := by unfold t3312Start; split <;> exact tlliInv_same i rfl rfl
  exp3312 g i := tlliInv_same i rfl rfl
  exp3316 g i _ := tlliInv_same i rfl rfl
  fsm ok g ev x _ i h := tlliInv_same i (fsm_names h) (fsm_tlli h).1

/-- C98, what holds of all histories: the TLLI a message is sent under is that of creation, with the P-TMSI
of creation still in force, the local TLLI of the P-TMSI in force, or none. -/
theorem c98_tlli_partial {cfg : GmmCfg} {enabled : Bool} {ptmsi rnd : Nat} {imsi : List Nat} {l : List GmmIn}
    {g : Gmme} {t : List GmmObs} (h : gmmRun cfg (gmmeAlloc enabled ptmsi imsi rnd) l = .ok (g, t))
    {ok : GmmOut → Bool} {ev : GmmEv} {r : GmmStep} (hs : gmmStep cfg ok g ev = .ok r) (tlli : Nat) (pdu : Octets)
    (ho : GmmOut.llUnitdata tlli pdu ∈ r.out) :
    (r.g.ptmsi = ptmsi ∧ tlli = if ptmsi = 0xffffffff then rnd else foreignTlli ptmsi) ∨
    tlli = localTlli r.g.ptmsi ∨ tlli = tlliUnassigned := by
  have i0 := gmmRun_inv (P := TlliInv ptmsi (if ptmsi = 0xffffffff then rnd else foreignTlli ptmsi))
    (fun g ok ev r => (tlli_closed cfg _ _).step g ok ev r) l _ _ _ (.inl ⟨rfl, rfl⟩) h
  have i1 := (tlli_closed cfg _ _).step _ _ _ _ i0 hs
  rw [step_under hs _ ho]
  exact i1

unseal localTlli foreignTlli

/-! ## C97: after detaching -/

/-- C97: once the network has accepted that a mobile station is detached, RLC/MAC does not know its TLLI any
more, and it can attach again and be given the same P-TMSI. -/
def C97Statement : Prop :=
  ∀ cfg ptmsi imsi rnd l s o, stackRun cfg (stack0 ptmsi imsi rnd) l = .ok (s, o) → s.g.st = .deregInit →
    ∀ s' o', stackStep cfg s ⟨.rx detAccMsg, yes⟩ = .ok (s', o') → findTlli s'.d s.g.tlli = none

/-- No DETACH ACCEPT has any effect on RLC/MAC. -/
theorem c97_violated_always {cfg : GmmCfg} {s s' : Stack} {i : GmmIn} {o : List GmmOut} {l : Octets}
    (he : i.ev = .rx (0x08 :: 0x06 :: l)) (h : stackStep cfg s i = .ok (s', o)) : s'.d = s.d := by
  unfold stackStep at h
  rw [he] at h
  have e0 : gmmStep cfg (stackOk s i.ok) s.g (.rx (0x08 :: 0x06 :: l)) =
      rxDetachAcc cfg (stackOk s i.ok) s.g (0x08 :: 0x06 :: l) := by
    show rxLlUnitdata cfg _ s.g _ = _
    unfold rxLlUnitdata
    rw [if_neg (by simp only [List.length_cons]; omega)]
    rfl
  rw [e0] at h
  cases hr : rxDetachAcc cfg (stackOk s i.ok) s.g (0x08 :: 0x06 :: l) with
  | err e => rw [hr] at h; cases h
  | ub f => rw [hr] at h; cases h
  | ok r =>
    rw [hr] at h
    injection h with h
    injection h with h1 h2
    subst h1
    apply quiet_outs
    have quiet : ∀ (g : Gmme) (x : GmmOut), x ∈ [assignOut g, .detachCnf g.detType] → stackOut s.g.imsi s.d x = s.d := by
      intro g x hx
      simp only [List.mem_cons, List.not_mem_nil, or_false] at hx
      rcases hx with rfl | rfl <;> rfl
    unfold rxDetachAcc at hr
    split at hr
    · unfold rejected at hr; injection hr with hr; subst hr; exact fun x hx => by cases hx
    · obtain ⟨v, _, hr⟩ := bind_eq_ok.1 hr
      extract_lets g1 g2 at hr
      clear_value g2
      unfold submitThen at hr
      split at hr
      · injection hr with hr; subst hr
        intro x hx
        unfold dispatch at hx
        split at hx
        · rename_i y z hf
          rcases List.mem_append.1 hx with hx | hx
          · exact quiet _ x (submit_sub hx)
          · unfold gmmFsm at hf
            split at hf <;> first
              | cases hf; done
              | (rename_i hev; cases hev; done)
              | (injection hf with hf
                 have hz := congrArg Prod.snd hf
                 dsimp only at hz
                 rw [← hz] at hx
                 unfold toDereg at hx
                 dsimp only at hx
                 split at hx
                 · rw [List.mem_singleton] at hx; subst hx; rfl
                 · cases hx)
        · exact quiet _ x (submit_sub hx)
      · unfold rejected at hr
        injection hr with hr; subst hr
        exact fun x hx => quiet _ x (submit_sub hx)

/-- Attached and detaching. -/
def detaching : List GmmIn := [⟨.attachReq prm0, yes⟩, ⟨.rx attAccMsg, yes⟩, ⟨.detachReq 1 false, yes⟩]

/-- What is left of a history that is known to exist. -/
def stackOf (r : Res (Stack × List GmmOut)) : Stack × List GmmOut :=
  match r with
  | .ok x => x
  | _ => (stack0 0 [] 0, [])

theorem stackOf_eq {r : Res (Stack × List GmmOut)} (h : (stackEnd r).isSome = true) : r = .ok (stackOf r) := by
  cases r with
  | ok x => rfl
  | err e => cases h
  | ub f => cases h

theorem c97_violated : ¬ C97Statement := by
  intro h
  have e1 := stackOf_eq (r := stackRun defaultCfg (stack0 0x1234 [2, 4, 1] 0) detaching) (by decide +kernel)
  have h1 := h defaultCfg 0x1234 [2, 4, 1] 0 detaching _ _ e1 (by decide +kernel)
  have e2 := stackOf_eq (r := stackStep defaultCfg (stackOf (stackRun defaultCfg (stack0 0x1234 [2, 4, 1] 0) detaching)).1
    ⟨.rx detAccMsg, yes⟩) (by decide +kernel)
  have h2 := h1 _ _ e2
  exact absurd h2 (by decide +kernel)

/-- The mobile station that has detached attaches again and gets the same P-TMSI: the accept is refused. -/
theorem c97_violated_again :
    (stackEnd (stackRun defaultCfg (stack0 0x1234 [2, 4, 1] 0)
      (detaching ++ [⟨.rx detAccMsg, yes⟩, ⟨.attachReq prm0, yes⟩, ⟨.rx attAccMsg, yes⟩]))).map (fun s => s.g.st) =
      some .regInit := by decide +kernel

end Verif.Props
