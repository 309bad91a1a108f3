import Verif.Props.GmmUnknownIe
import Verif.Props.SmReach
/-!
# C193: the PDP context status reported is that of the message received
-/
namespace Verif.Props
open Verif Verif.Gmm Verif.Gsm

/-! ## Specification -/

/-- A message contains the element PDP context status (identifier 0x32, 3GPP TS 24.008, 10.5.7.1) with this beginning of
its value. -/
def HasStatus (b v : Octets) : Prop := ∃ p n q, b = p ++ 0x32 :: n :: (v ++ q)

/-- **C193**, full statement.  When GMM gets ROUTING AREA UPDATE ACCEPT and reports a PDP context status to session
management, the message contains it. -/
def C193Statement : Prop :=
  ∀ cfg ok g t m r, GmmReach cfg g t → gmmStep cfg ok g (.rx (0x08 :: 0x09 :: m)) = .ok r →
    ∀ sess pt sig tl ra v np nl, .modifyInd sess pt sig tl ra (some v) np nl ∈ r.out → HasStatus (0x08 :: 0x09 :: m) v

/-! ## Proof -/

/-- Where the elements found come from. -/
theorem ieParseFrom_mem {d : Nat → IeType} {b : Octets} : ∀ (fuel pos : Nat) (l : List Ie),
    ieParseFrom d b fuel pos = .ok l → ∀ e ∈ l, ∃ p n, ieParseOne d b p = .ok (e, n) := by
  intro fuel
  induction fuel with
  | zero => intro pos l h e he; injection h with h; subst h; cases he
  | succ fuel ih =>
    intro pos l h e he
    unfold ieParseFrom at h
    split at h
    · injection h with h; subst h; cases he
    · split at h
      · cases h
      · cases h
      · rename_i e1 n h1
        split at h
        · cases h
        · cases h
        · rename_i l1 h2
          injection h with h
          subst h
          rcases List.mem_cons.1 he with rfl | he
          · exact ⟨_, _, h1⟩
          · exact ih _ _ h2 e he

theorem ieParseOne_tlv {d : Nat → IeType} {b : Octets} {p n : Nat} {e : Ie} (h : ieParseOne d b p = .ok (e, n))
    (ht : d e.tag = .tlv) : rd b p = .ok e.tag ∧ e.ofs = p + 2 := by
  unfold ieParseOne at h
  obtain ⟨t, h1, h⟩ := bind_eq_ok.1 h
  split at h
  · rename_i hs
    injection h with h
    injection h with h2 h3
    subst h2
    rw [show d (t / 16 * 16) = .tlv from ht] at hs
    cases hs
  · split at h
    · rename_i hd
      split at h
      · cases h
      · injection h with h
        injection h with h2 h3
        subst h2
        rw [show d t = .tlv from ht] at hd
        cases hd
    · rename_i hd
      split at h
      · cases h
      · injection h with h
        injection h with h2 h3
        subst h2
        rw [show d t = .tlv from ht] at hd
        cases hd
    · split at h
      · cases h
      · obtain ⟨l, hl, h⟩ := bind_eq_ok.1 h
        split at h
        · cases h
        · injection h with h
          injection h with h2 h3
          subst h2
          exact ⟨h1, rfl⟩
    · cases h
    · cases h

theorem applyPdpStatus_has {b : Octets} {ies : List Ie} {g g1 : Gmme} {pos : Nat} {v : Octets}
    (hp : ieParse gmmIes b pos = .ok ies) (h : applyPdpStatus b ies g = .ok g1) (hv : g1.pdpStatus = some v) :
    HasStatus b v := by
  unfold applyPdpStatus at h
  split at h
  · rename_i e he
    obtain ⟨w, hw, h⟩ := bind_eq_ok.1 h
    injection h with h
    subst h
    injection hv with hv
    subst hv
    have hg : ieGet ies 0x32 = some e := by
      unfold ieGetLen at he
      split at he
      · rename_i e' he'
        split at he
        · injection he with he; subst he; exact he'
        · cases he
      · cases he
    have hm := List.mem_of_find?_eq_some hg
    have htag : e.tag = 0x32 := by simpa using List.find?_some hg
    obtain ⟨p, n, h1⟩ := ieParseFrom_mem _ _ _ hp e hm
    obtain ⟨h2, h3⟩ := ieParseOne_tlv h1 (by rw [htag]; rfl)
    have hlt : p < b.length := rd_safe_iff.1 (by rw [h2]; exact Res.safe_ok _)
    rw [rd_of_lt hlt, htag] at h2
    injection h2 with h2
    unfold rdN at hw
    split at hw
    · rename_i hl
      injection hw with hw
      have h50 : b[p] = 0x32 := UInt8.toNat_inj.1 h2
      refine ⟨b.take p, b[p + 1]'(by omega), b.drop (p + 4), ?_⟩
      rw [← hw, h3]
      have e1 : b.drop (p + 2) = (b.drop (p + 2)).take 2 ++ b.drop (p + 4) := by
        rw [show b.drop (p + 4) = (b.drop (p + 2)).drop 2 from by rw [List.drop_drop], List.take_append_drop]
      rw [← e1, ← h50, ← List.drop_eq_getElem_cons, ← List.drop_eq_getElem_cons, List.take_append_drop]
    · cases hw
  · injection h with h
    subst h
    cases hv

theorem submitThen_modify {cfg : GmmCfg} {ok : GmmOut → Bool} {y : Gmme} {outs : List GmmOut} {r : GmmStep}
    (h : submitThen cfg ok y outs .rauAccepted = .ok r) {sess pt sig tl : Nat} {ra : Octets} {st : Option Octets} {np : Bool}
    {nl : Octets} (hm : .modifyInd sess pt sig tl ra st np nl ∈ r.out) : .modifyInd sess pt sig tl ra st np nl ∈ outs := by
  unfold submitThen at h
  split at h
  · injection h with h
    subst h
    unfold dispatch at hm
    split at hm
    · rename_i g' out hf
      rcases List.mem_append.1 hm with hm | hm
      · exact submit_sub hm
      · exfalso
        unfold gmmFsm at hf
        split at hf <;> first
          | (rename_i he; cases he; done)
          | (cases hf; done)
          | skip
        · injection hf with hf
          injection hf with _ hf
          rw [← hf] at hm; cases hm
        · injection hf with hf
          unfold rauDone at hf
          injection hf with _ hf
          rw [← hf] at hm
          simp at hm
    · exact submit_sub hm
  · injection h with h
    subst h
    exact submit_sub hm

/-- After ROUTING AREA UPDATE ACCEPT what is reported is what is stored then. -/
theorem rau_modify {cfg : GmmCfg} {ok : GmmOut → Bool} {g : Gmme} {b : Octets} {r : GmmStep}
    (h : rxRauAcc cfg ok g b = .ok r) {sess pt sig tl : Nat} {ra : Octets} {st : Option Octets} {np : Bool} {nl : Octets}
    (hm : .modifyInd sess pt sig tl ra st np nl ∈ r.out) :
    ∃ o t ra' y, rauAccIes cfg b (applyFixed g t (decide (o % 16 ≠ 0)) ra') = .ok (y, true) ∧ y.pdpStatus = st := by
  unfold rxRauAcc at h
  split at h
  · injection h with h; subst h; cases hm
  · obtain ⟨o, _, h⟩ := bind_eq_ok.1 h
    obtain ⟨t, _, h⟩ := bind_eq_ok.1 h
    obtain ⟨ra', _, h⟩ := bind_eq_ok.1 h
    obtain ⟨⟨y, ya⟩, hx, h⟩ := bind_eq_ok.1 h
    cases ya with
    | false => injection h with h; subst h; cases hm
    | true =>
      refine ⟨o, t, ra', y, hx, ?_⟩
      have key : .modifyInd sess pt sig tl ra st np nl ∈
          ([assignOut y, rrAssignOut y] ++ (if y.sess ≠ sessUnassigned then [modifyOut y] else []) ++
            [.llUnitdata y.tlli rauCompl]) := by
        exact submitThen_modify (outs := _) h hm
      simp only [List.mem_append, List.mem_cons, List.not_mem_nil, or_false] at key
      rcases key with ((key | key) | key) | key
      · cases key
      · cases key
      · split at key
        · rw [List.mem_singleton] at key
          unfold modifyOut at key
          injection key with _ _ _ _ _ key
          exact key.symm
        · cases key
      · cases key

/-- **C193** (partial): it holds for every message with an optional element, whatever that element is. -/
theorem c193_partial (cfg : GmmCfg) (ok : GmmOut → Bool) (g : Gmme) (m : Octets) (r : GmmStep) (hl : 8 < m.length)
    (h : gmmStep cfg ok g (.rx (0x08 :: 0x09 :: m)) = .ok r) (sess pt sig tl : Nat) (ra v : Octets) (np : Bool) (nl : Octets)
    (hm : .modifyInd sess pt sig tl ra (some v) np nl ∈ r.out) : HasStatus (0x08 :: 0x09 :: m) v := by
  have h' : rxRauAcc cfg ok g (0x08 :: 0x09 :: m) = .ok r := h
  obtain ⟨o, t, ra', y, hx, hy⟩ := rau_modify h' hm
  unfold rauAccIes at hx
  rw [if_pos (show (0x08 :: 0x09 :: m : Octets).length > 10 from by simp only [List.length_cons]; omega)] at hx
  split at hx
  · cases hx
  · cases hx
  · rename_i ies hp
    obtain ⟨g1, h1, hx⟩ := bind_eq_ok.1 hx
    obtain ⟨g2, h2, hx⟩ := bind_eq_ok.1 hx
    split at hx
    · cases hx
    · obtain ⟨im, h3, hx⟩ := bind_eq_ok.1 hx
      split at hx
      · unfold rauAccRest at hx
        obtain ⟨g3, h4, hx⟩ := bind_eq_ok.1 hx
        obtain ⟨g4, h5, hx⟩ := bind_eq_ok.1 hx
        obtain ⟨g5, h6, hx⟩ := bind_eq_ok.1 hx
        injection hx with hx
        injection hx with hx
        subst hx
        exact applyPdpStatus_has hp h6 hy
      · cases hx

theorem readyStop_status (g : Gmme) : (readyStop g).pdpStatus = g.pdpStatus := by
  unfold readyStop t3312Start
  split
  · split <;> rfl
  · rfl

theorem applyFixed_status (g : Gmme) (t : Nat) (f : Bool) (ra : Octets) : (applyFixed g t f ra).pdpStatus = g.pdpStatus := by
  unfold applyFixed t3312Stop
  by_cases h : tmrAssigned t = 0 <;> cases f
  · rw [if_pos h]; rfl
  · rw [if_pos h, if_pos rfl]; exact readyStop_status _
  · rw [if_neg h]; rfl
  · rw [if_neg h, if_pos rfl]; exact readyStop_status _

/-- A message without optional elements makes GMM report the status of an earlier message. -/
theorem c193_stale (cfg : GmmCfg) (ok : GmmOut → Bool) (g : Gmme) (m : Octets) (r : GmmStep) (hl : m.length ≤ 8)
    (h : gmmStep cfg ok g (.rx (0x08 :: 0x09 :: m)) = .ok r) (sess pt sig tl : Nat) (ra : Octets) (st : Option Octets)
    (np : Bool) (nl : Octets) (hm : .modifyInd sess pt sig tl ra st np nl ∈ r.out) : st = g.pdpStatus := by
  have h' : rxRauAcc cfg ok g (0x08 :: 0x09 :: m) = .ok r := h
  obtain ⟨o, t, ra', y, hx, hy⟩ := rau_modify h' hm
  unfold rauAccIes at hx
  rw [if_neg (show ¬(0x08 :: 0x09 :: m : Octets).length > 10 from by simp only [List.length_cons]; omega)] at hx
  injection hx with hx
  injection hx with hx
  rw [← hy, ← hx, applyFixed_status]

/-! ## The refutation -/

/-- ROUTING AREA UPDATE ACCEPT without optional elements. -/
def rauBare : Octets := [0x08, 0x09, 0, 0x4a, 0x62, 0xf2, 0x20, 0, 1, 0]

/-- Session management has the mobile station attached; later the network says that no PDP context is active. -/
def statusTold : List GmmIn :=
  [⟨.establishReq 0 ⟨1, false, 1, [], [], [0x62, 0xf2, 0x20, 0, 1, 0]⟩, fun _ => true⟩,
   ⟨.rx plainAccept, fun _ => true⟩,
   ⟨.rx (rauBare ++ [0x32, 2, 0, 0]), fun _ => true⟩]

/-- The states of the PDP contexts reported. -/
def statuses (l : List GmmOut) : List (Option Octets) :=
  l.filterMap fun o => match o with
    | .modifyInd _ _ _ _ _ st _ _ => some st
    | _ => none

/-- **C193 is violated**: the next ROUTING AREA UPDATE ACCEPT, without the element, makes GMM report again that no PDP
context is active. -/
theorem c193_violated : ¬ C193Statement := by
  intro h
  have hr := runEnd_ok (r := gmmRun defaultCfg (gmmeAlloc true 0xc0000001 [0, 0, 1, 0, 1] 7) statusTold) (by decide +kernel)
  generalize hx : runEnd (gmmRun defaultCfg (gmmeAlloc true 0xc0000001 [0, 0, 1, 0, 1] 7) statusTold) = x at hr
  have hok : (match gmmStep defaultCfg (fun _ => true) x.1 (.rx rauBare) with
      | .ok r => decide (some [0, 0] ∈ statuses r.out)
      | _ => false) = true := by
    rw [← hx]; decide +kernel
  cases hs : gmmStep defaultCfg (fun _ => true) x.1 (.rx rauBare) with
  | ok r =>
    rw [hs] at hok
    have hm : some [0, 0] ∈ statuses r.out := of_decide_eq_true hok
    unfold statuses at hm
    obtain ⟨o, ho, ho2⟩ := List.mem_filterMap.1 hm
    split at ho2
    · injection ho2 with ho2
      subst ho2
      obtain ⟨p, n, q, hb⟩ := h defaultCfg (fun _ => true) x.1 x.2 _ r ⟨_, _, _, _, _, hr⟩ hs _ _ _ _ _ _ _ _ ho
      have : (0x32 : UInt8) ∈ rauBare := by
        rw [show rauBare = p ++ 0x32 :: n :: ([0, 0] ++ q) from hb]
        exact List.mem_append_right _ List.mem_cons_self
      exact absurd this (by decide)
    · cases ho2
  | err e => rw [hs] at hok; cases hok
  | ub f => rw [hs] at hok; cases hok

/-- The hypotheses of `c193_partial` are met: the message with the element makes GMM report it. -/
example : (match gmmStep defaultCfg (fun _ => true)
      (runEnd (gmmRun defaultCfg (gmmeAlloc true 0xc0000001 [0, 0, 1, 0, 1] 7) (statusTold.take 2))).1
      (.rx (rauBare ++ [0x32, 2, 0x20, 0])) with
    | .ok r => statuses r.out == [some [0x20, 0]]
    | _ => false) = true := by decide +kernel

/-- NSAPI 5 is requested; the network, asked to update the routing area meanwhile, says that no PDP context is active
yet; it then accepts the request, and the context is active. -/
def staleHistory : List Sm.SgEv :=
  [.actReq (sgReq 0 5 0xc0000001) [],
   .gmm (.rx (foreignTlli 0xc0000001) (acceptMsg 1 0x4a 4 [0x62, 0xf2, 0x20, 0, 1, 0] (some 0xc0000005))),
   .gmm (.t3314 0), .gmm (.t3312 0),
   .gmm (.rx (localTlli 0xc0000005) (rauBare ++ [0x32, 2, 0, 0])),
   .gmm (.rx (localTlli 0xc0000005) (actAccMsg 3 4 [0, 0, 0])),
   .snsmActRsp (localTlli 0xc0000005) 5]

/-- What it costs: a ROUTING AREA UPDATE ACCEPT that says nothing about PDP contexts makes session management have
SNDCP deactivate the active one. -/
theorem c193_active_context_lost :
    (Sm.SgOut.sm (.actAcc 0 5 [] ⟨0x21, none, none⟩ 4 [0, 0, 0]) ∈
      sgOuts (Sm.sgRun defaultCfg sgWho yes Sm.sg0 staleHistory)) ∧
    (match Sm.sgStep defaultCfg sgWho yes (sgState (Sm.sgRun defaultCfg sgWho yes Sm.sg0 staleHistory))
        (.gmm (.rx (localTlli 0xc0000005) rauBare)) with
      | .ok r => decide (Sm.SgOut.sm (.snsmDeactInd (localTlli 0xc0000005) 5) ∈ r.2)
      | _ => false) = true := by
  constructor <;> decide +kernel

end Verif.Props
