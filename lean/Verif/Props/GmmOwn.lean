import Verif.Props.GmmTlli
/-!
# The messages GMM builds are GMM messages
-/
namespace Verif.Props
open Verif Verif.Gmm Verif.Gsm

/-- A message to LLC is a GMM message: protocol discriminator 8, no skip indicator.  Nothing is a message for
SM. -/
def OwnMsg (_g : Gmme) : GmmOut → Prop
  | .llUnitdata _ b => b.head? = some 0x08
  | .smUnitdataInd _ _ => False
  | _ => True

theorem attachReq_own {t : Nat} {w : Bool} {p g : Nat} {i : List Nat} {ra : Octets} {s : Nat} {b : Octets}
    (h : buildAttachReq t w p g i ra s = some b) : b.head? = some 0x08 := by
  unfold buildAttachReq at h
  split at h
  · cases h
  · injection h with h; subst h; rfl

theorem idResp_own {t p : Nat} {i e v : List Nat} {b : Octets} (h : buildIdResp t p i e v = some b) :
    b.head? = some 0x08 := by
  unfold buildIdResp at h
  split at h
  · cases h
  · injection h with h; subst h; rfl

theorem authResp_own {a : Nat} {s : Option Octets} {r : Bool} {v : List Nat} {b : Octets}
    (h : buildAuthResp a s r v = some b) : b.head? = some 0x08 := by
  unfold buildAuthResp at h
  dsimp only at h
  split at h
  · split at h
    · injection h with h; subst h; rfl
    · cases h
  · injection h with h; subst h; rfl

theorem fsm_own {cfg : GmmCfg} {ok : GmmOut → Bool} {g : Gmme} {ev : FsmEv} {x : Gmme × List GmmOut}
    (h : gmmFsm cfg ok g ev = some x) : x.1.tlli = g.tlli ∧ ∀ o ∈ x.2, OwnMsg g o := by
  have kd : (toDereg g).1.tlli = g.tlli ∧ ∀ o ∈ (toDereg g).2, OwnMsg g o := by
    refine ⟨rfl, fun o ho => ?_⟩
    unfold toDereg at ho
    dsimp only at ho
    split at ho
    · rw [List.mem_singleton] at ho; subst ho; trivial
    · cases ho
  have ktx : ∀ o ∈ (txAttReq cfg g).toList, OwnMsg g o := by
    intro o ho
    unfold txAttReq at ho
    split at ho
    · rename_i hb
      rw [Option.toList_some, List.mem_singleton] at ho; subst ho; exact attachReq_own hb
    · cases ho
  have ka : (startAttach cfg ok g).1.tlli = g.tlli ∧ ∀ o ∈ (startAttach cfg ok g).2, OwnMsg g o := by
    unfold startAttach
    split
    · exact ⟨rfl, fun o ho => by cases ho⟩
    · rename_i y hy
      refine ⟨by dsimp only; split <;> rfl, fun o ho => ?_⟩
      rw [List.mem_singleton] at ho; subst ho
      exact ktx o (by rw [hy]; exact List.mem_singleton.2 rfl)
  have kf : ∀ c, (attachFailed ok g c).1.tlli = g.tlli ∧ ∀ o ∈ (attachFailed ok g c).2, OwnMsg g o := by
    intro c
    refine ⟨rfl, fun o ho => ?_⟩
    unfold attachFailed at ho
    rcases List.mem_append.1 ho with ho | ho
    · exact kd.2 o ho
    · rcases List.mem_append.1 (submit_sub ho) with ho | ho <;> split at ho <;> first
        | cases ho; done
        | (rw [List.mem_singleton] at ho; subst ho; first | trivial | (unfold estRejOut; split <;> trivial))
  have kn : ∀ o ∈ (attachDone ok g).2, OwnMsg g o := by
    intro o ho
    unfold attachDone at ho
    rcases List.mem_append.1 (submit_sub ho) with ho | ho <;> split at ho <;> first
      | cases ho; done
      | (rw [List.mem_singleton] at ho; subst ho; trivial)
  have kr : (startRau cfg ok g).1.tlli = g.tlli ∧ ∀ o ∈ (startRau cfg ok g).2, OwnMsg g o := by
    unfold startRau
    refine ⟨by dsimp only; split <;> rfl, fun o ho => ?_⟩
    simp only [List.mem_cons, List.not_mem_nil, or_false] at ho
    rcases ho with rfl | rfl
    · trivial
    · rfl
  have kj : ∀ c, (rauRejectedAct g c).1.tlli = g.tlli ∧ ∀ o ∈ (rauRejectedAct g c).2, OwnMsg g o := by
    intro c; unfold rauRejectedAct; split
    · exact ⟨rfl, fun o ho => by cases ho⟩
    · exact kd
  unfold gmmFsm at h
  split at h <;> first | cases h | (injection h with h; subst h)
  all_goals first
    | exact kd
    | exact ka
    | exact kr
    | exact kj _
    | exact kf _
    | exact ⟨rfl, kn⟩
    | exact ⟨rfl, ktx⟩
    | (refine ⟨rfl, ?_⟩; intro o ho; cases ho; done)
    | (refine ⟨rfl, ?_⟩; intro o ho; unfold rauDone at ho; rw [List.mem_singleton] at ho; subst ho; trivial)

theorem dispatch_own {cfg : GmmCfg} {ok : GmmOut → Bool} {g : Gmme} {pre : List GmmOut} {ev : FsmEv}
    (hp : ∀ o ∈ pre, OwnMsg g o) :
    (dispatch cfg ok g pre ev).g.tlli = g.tlli ∧
    ∀ o ∈ (dispatch cfg ok g pre ev).out, OwnMsg (dispatch cfg ok g pre ev).g o := by
  unfold dispatch
  split
  · rename_i x y e
    obtain ⟨h1, h2⟩ := fsm_own e
    dsimp only at h1 h2 ⊢
    refine ⟨h1, fun o ho => ?_⟩
    have : OwnMsg g o := by
      rcases List.mem_append.1 ho with ho | ho
      · exact hp o ho
      · exact h2 o ho
    cases o <;> first | trivial | exact this.trans h1.symm
  · exact ⟨rfl, hp⟩

/-- All messages of the step are GMM's own. -/
def OwnOnly (r : GmmStep) : Prop := ∀ o ∈ r.out, OwnMsg r.g o

theorem rejected_own {g : Gmme} {outs : List GmmOut} {r : GmmStep} (hp : ∀ o ∈ outs, OwnMsg g o)
    (h : rejected g outs = .ok r) : OwnOnly r := by
  unfold rejected at h
  injection h with h; subst h; exact hp

theorem dispatch_own2 {cfg : GmmCfg} {ok : GmmOut → Bool} {g : Gmme} {pre : List GmmOut} {ev : FsmEv}
    (hp : ∀ o ∈ pre, OwnMsg g o) : OwnOnly (dispatch cfg ok g pre ev) := (dispatch_own hp).2

theorem submitThen_own {cfg : GmmCfg} {ok : GmmOut → Bool} {g : Gmme} {outs : List GmmOut} {ev : FsmEv}
    {r : GmmStep} (hp : ∀ o ∈ outs, OwnMsg g o) (h : submitThen cfg ok g outs ev = .ok r) : OwnOnly r := by
  unfold submitThen at h
  split at h
  · injection h with h; subst h
    exact dispatch_own2 fun o ho => hp o (submit_sub ho)
  · exact rejected_own (fun o ho => hp o (submit_sub ho)) h

theorem own_nil {g : Gmme} : ∀ o ∈ ([] : List GmmOut), OwnMsg g o := fun _ h => by cases h

theorem own_one {g : Gmme} {x : GmmOut} (h : OwnMsg g x) : ∀ o ∈ [x], OwnMsg g o := fun o ho => by
  rw [List.mem_singleton] at ho; subst ho; exact h

theorem authFinish_own {ok : GmmOut → Bool} {g : Gmme} {sres : Option Octets} : OwnOnly (authFinish ok g sres) := by
  unfold authFinish
  split
  · unfold authAnswer
    split
    · exact own_one (by trivial)
    · rename_i hb
      intro o ho
      simp only [submitOne, List.cons_append, List.nil_append, List.mem_cons, List.not_mem_nil, or_false] at ho
      rcases ho with rfl | rfl
      · trivial
      · exact authResp_own hb
  · intro o ho
    simp only [List.mem_cons, List.not_mem_nil, or_false] at ho
    rcases ho with rfl | rfl
    · trivial
    · rfl

theorem gmmRx_own {cfg : GmmCfg} {ok : GmmOut → Bool} {g : Gmme} {b : Octets} {mt : Nat} {r : GmmStep}
    (h : gmmRx cfg ok g b mt = .ok r) : OwnOnly r := by
  unfold gmmRx at h
  by_cases e : mt = 0x02
  · rw [if_pos e] at h
    unfold rxAttAcc at h
    split at h
    · exact rejected_own own_nil h
    · obtain ⟨o, _, h⟩ := bind_eq_ok.1 h
      obtain ⟨t, _, h⟩ := bind_eq_ok.1 h
      obtain ⟨ra, _, h⟩ := bind_eq_ok.1 h
      obtain ⟨x, hx, h⟩ := bind_eq_ok.1 h
      unfold attAccEnd at h
      split at h
      · refine submitThen_own ?_ h
        intro o ho
        simp only [List.mem_cons, List.not_mem_nil, or_false] at ho
        rcases ho with rfl | rfl | rfl
        · trivial
        · trivial
        · rfl
      · exact rejected_own own_nil h
  rw [if_neg e] at h
  clear e
  by_cases e : mt = 0x04
  · rw [if_pos e] at h
    unfold rxAttRej at h
    split at h
    · exact rejected_own own_nil h
    · obtain ⟨k, _, h⟩ := bind_eq_ok.1 h
      split at h
      · exact rejected_own own_nil h
      · cases h
      · injection h with h; subst h; exact dispatch_own2 own_nil
  rw [if_neg e] at h
  clear e
  by_cases e : mt = 0x06
  · rw [if_pos e] at h
    unfold rxDetachAcc at h
    split at h
    · exact rejected_own own_nil h
    · obtain ⟨o, _, h⟩ := bind_eq_ok.1 h
      refine submitThen_own ?_ h
      intro o ho
      simp only [List.mem_cons, List.not_mem_nil, or_false] at ho
      rcases ho with rfl | rfl <;> trivial
  rw [if_neg e] at h
  clear e
  by_cases e : mt = 0x09
  · rw [if_pos e] at h
    unfold rxRauAcc at h
    split at h
    · exact rejected_own own_nil h
    · obtain ⟨o, _, h⟩ := bind_eq_ok.1 h
      obtain ⟨t, _, h⟩ := bind_eq_ok.1 h
      obtain ⟨ra, _, h⟩ := bind_eq_ok.1 h
      obtain ⟨x, hx, h⟩ := bind_eq_ok.1 h
      unfold rauAccEnd at h
      split at h
      · refine submitThen_own ?_ h
        intro o ho
        rcases List.mem_append.1 ho with ho | ho
        · rcases List.mem_append.1 ho with ho | ho
          · simp only [List.mem_cons, List.not_mem_nil, or_false] at ho
            rcases ho with rfl | rfl <;> trivial
          · split at ho
            · rw [List.mem_singleton] at ho; subst ho; trivial
            · cases ho
        · rw [List.mem_singleton] at ho; subst ho; rfl
      · exact rejected_own own_nil h
  rw [if_neg e] at h
  clear e
  by_cases e : mt = 0x0b
  · rw [if_pos e] at h
    unfold rxRauRej at h
    split at h
    · injection h with h; subst h; exact (dispatch_own own_nil).2
    · obtain ⟨k, _, h⟩ := bind_eq_ok.1 h
      obtain ⟨o, _, h⟩ := bind_eq_ok.1 h
      dsimp only at h
      split at h
      · cases h
      · injection h with h; subst h; exact (dispatch_own own_nil).2
  rw [if_neg e] at h
  clear e
  by_cases e : mt = 0x15
  · rw [if_pos e] at h
    unfold rxIdReq at h
    split at h
    · exact rejected_own own_nil h
    · obtain ⟨o, _, h⟩ := bind_eq_ok.1 h
      dsimp only at h
      split at h
      · injection h with h; subst h; exact own_nil
      · rename_i hb; injection h with h; subst h; exact own_one (idResp_own hb)
  rw [if_neg e] at h
  clear e
  by_cases e : mt = 0x10
  · rw [if_pos e] at h
    unfold rxPtmsiReall at h
    split at h
    · exact rejected_own own_nil h
    · obtain ⟨l, _, h⟩ := bind_eq_ok.1 h
      split at h
      · exact rejected_own own_nil h
      · obtain ⟨mi, _, h⟩ := bind_eq_ok.1 h
        split at h
        · exact rejected_own own_nil h
        · rename_i q _
          obtain ⟨ra, _, h⟩ := bind_eq_ok.1 h
          obtain ⟨o, _, h⟩ := bind_eq_ok.1 h
          generalize (if o / 16 = 1 then readyStop { updatePtmsi g q with ra := ra }
              else { updatePtmsi g q with ra := ra }) = g1 at h
          unfold ptmsiReallEnd at h
          have h2 : ∀ o ∈ [assignOut g1, rrAssignOut g1], OwnMsg g1 o := by
            intro o ho
            simp only [List.mem_cons, List.not_mem_nil, or_false] at ho
            rcases ho with rfl | rfl <;> trivial
          split at h
          · injection h with h; subst h
            intro o ho
            rcases List.mem_append.1 ho with ho | ho
            · exact h2 o ho
            · rw [List.mem_singleton] at ho; subst ho; rfl
          · exact rejected_own (fun o ho => h2 o (submit_sub ho)) h
  rw [if_neg e] at h
  clear e
  by_cases e : mt = 0x12
  · rw [if_pos e] at h
    unfold rxAuthReq at h
    split at h
    · injection h with h; subst h; exact own_one rfl
    · obtain ⟨o2, _, h⟩ := bind_eq_ok.1 h
      obtain ⟨o3, h3, h⟩ := bind_eq_ok.1 h
      split at h
      · cases h
      · injection h with h; subst h; exact own_one rfl
      · obtain ⟨x, _, h⟩ := bind_eq_ok.1 h
        injection h with h; subst h
        unfold authApply
        dsimp only
        split
        · split
          · exact own_one (by trivial)
          · intro o ho
            simp only [List.mem_cons, List.not_mem_nil, or_false] at ho
            rcases ho with rfl | rfl
            · trivial
            · rfl
        · exact authFinish_own
  rw [if_neg e] at h
  clear e
  by_cases e : mt = 0x14
  · rw [if_pos e] at h
    injection h with h; subst h; exact dispatch_own2 own_nil
  rw [if_neg e] at h
  clear e
  by_cases e : mt = 0x20
  · rw [if_pos e] at h
    by_cases e' : b.length < 3
    · rw [if_pos e'] at h; exact rejected_own own_nil h
    · rw [if_neg e'] at h
      injection h with h; subst h; exact own_nil
  rw [if_neg e] at h
  clear e
  by_cases e : mt = 0x21
  · rw [if_pos e] at h
    unfold rxInfo at h
    split at h
    · cases h
    · exact rejected_own own_nil h
    · injection h with h; subst h; exact own_nil
  rw [if_neg e] at h
  exact rejected_own own_nil h

theorem txAttReq_own {cfg : GmmCfg} {g h : Gmme} : ∀ o ∈ (txAttReq cfg g).toList, OwnMsg h o := by
  intro o ho
  unfold txAttReq at ho
  split at ho
  · rename_i hb
    rw [Option.toList_some, List.mem_singleton] at ho; subst ho; exact attachReq_own hb
  · cases ho

theorem step_own_sm {cfg : GmmCfg} {g : Gmme} {ok : GmmOut → Bool} {ev : GmmEv} {r : GmmStep}
    (h : gmmStep cfg ok g ev = .ok r) (hn : ∀ b, ev ≠ .smUnitdataReq b) : OwnOnly r ∨
      ∃ s b, ev = .rx b ∧ r.out = [.smUnitdataInd s b] := by
  cases ev with
  | enable on => injection h with h; subst h; exact Or.inl (dispatch_own2 own_nil)
  | attachReq q => injection h with h; subst h; exact Or.inl (dispatch_own2 own_nil)
  | detachReq t q =>
    injection h with h; subst h
    refine Or.inl fun o ho => ?_
    unfold detachReqAct at ho ⊢
    rcases List.mem_append.1 ho with ho | ho
    · exact (dispatch_own own_nil).2 o ho
    · rw [List.mem_singleton] at ho; subst ho; rfl
  | simAuthRsp a k rnd s kc =>
    injection h with h; subst h
    refine Or.inl ?_
    unfold simAuthRspAct
    split
    · exact authFinish_own
    · exact own_nil
  | establishReq s q =>
    injection h with h; subst h
    refine Or.inl ?_
    unfold establishReqAct
    dsimp only
    split
    · exact own_one (by trivial)
    · exact dispatch_own2 own_nil
  | smUnitdataReq b => exact absurd rfl (hn b)
  | pageInd => injection h with h; subst h; exact Or.inl (own_one (by trivial))
  | llcTransmitted => injection h with h; subst h; exact Or.inl own_nil
  | rx b =>
    change rxLlUnitdata cfg ok g b = .ok r at h
    unfold rxLlUnitdata at h
    split at h
    · exact Or.inl (rejected_own own_nil h)
    · obtain ⟨pd, _, h⟩ := bind_eq_ok.1 h
      obtain ⟨mt, hm, h⟩ := bind_eq_ok.1 h
      split at h
      · exact Or.inl (gmmRx_own h)
      · split at h
        · injection h with h; subst h; exact Or.inr ⟨_, _, rfl, rfl⟩
        · cases h
  | fsmTimer =>
    injection h with h; subst h
    refine Or.inl ?_
    unfold fsmTimeout
    split
    · split
      · exact dispatch_own2 own_nil
      · exact txAttReq_own
    · split
      · exact dispatch_own2 own_nil
      · exact own_one rfl
    · exact own_nil
  | t3314 => injection h with h; subst h; exact Or.inl own_nil
  | t3312 =>
    injection h with h; subst h
    refine Or.inl ?_
    unfold periodicUpdate
    split
    · exact (dispatch_own own_nil).2
    · exact own_nil
  | t3316 => injection h with h; subst h; exact Or.inl own_nil

/-- GMM's own messages to LLC. -/
theorem step_own {cfg : GmmCfg} {g : Gmme} {ok : GmmOut → Bool} {ev : GmmEv} {r : GmmStep}
    (h : gmmStep cfg ok g ev = .ok r) (hn : ∀ b, ev ≠ .smUnitdataReq b) {t : Nat} {b : Octets}
    (hb : GmmOut.llUnitdata t b ∈ r.out) : b.head? = some 0x08 := by
  rcases step_own_sm h hn with h | ⟨s, d, -, h⟩
  · exact h _ hb
  · rw [h, List.mem_singleton] at hb; cases hb

/-- What SM gets is what came from the network. -/
theorem step_sm {cfg : GmmCfg} {g : Gmme} {ok : GmmOut → Bool} {ev : GmmEv} {r : GmmStep}
    (h : gmmStep cfg ok g ev = .ok r) {s : Nat} {b : Octets} (hb : GmmOut.smUnitdataInd s b ∈ r.out) : ev = .rx b := by
  by_cases hn : ∀ b, ev ≠ .smUnitdataReq b
  · rcases step_own_sm h hn with h | ⟨s', d, h1, h⟩
    · exact (h _ hb).elim
    · rw [h, List.mem_singleton] at hb
      injection hb with _ hb
      rw [hb]; exact h1
  · obtain ⟨d, hd⟩ := Classical.not_forall.1 hn
    have hd := Classical.not_not.1 hd
    subst hd
    injection h with h; subst h
    unfold submitOne at hb
    rw [List.nil_append, List.mem_singleton] at hb
    cases hb

end Verif.Props
