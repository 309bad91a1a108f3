import Verif.Sm.Phone
import Verif.Props.SmReach
import Verif.Props.SndcpEntity
import Verif.Props.QosProfile
import Verif.Spec.GmmNet
/-!
# C166: a PDP context reported active carries packets; C168: an activation the network accepts is reported
-/
namespace Verif.Props
open Verif Verif.Gmm Verif.Sm Verif.Gsm

/-! ## Specification -/

/-- **C166**, full statement.  In every history, whenever the user is told that a PDP context is active, SNDCP takes
packets for it under the TLLI the mobile station has. -/
def C166Statement : Prop :=
  ∀ cfg (who : Nat → Ident) ok l s tr, (∀ e ∈ l, PhEv.Outside e) → phRun cfg who ok ph0 l = .ok (s, tr) →
    ∀ id n pco addr p k ph, (PhOut.sg (.sm (.actAcc id n pco addr p k)), ph) ∈ tr →
      ∀ g ∈ ph.up.gmm.es, g.imsi = (who id).imsi → ∃ sapi, Carries ph g.tlli sapi n

/-- The user asks for a PDP context, the network accepts the mobile station with a new P-TMSI, and it accepts the PDP
context. -/
def phActivation (r : ActReq) (draws : List Nat) (result timer prio : UInt8) (ra : Octets) (q : Nat) (sapi rp : UInt8)
    (qos : Octets) : List PhEv :=
  [.sg (.actReq r draws), .sg (.gmm (.rx (foreignTlli r.ptmsi) (acceptMsg result timer prio ra (some q)))),
   .sg (.gmm (.rx (localTlli q) (actAccMsg sapi rp qos)))]

/-- **C168**, full statement.  When the network accepts everything, the user is told that the PDP context is
active. -/
def C168Statement : Prop :=
  ∀ cfg (who : Nat → Ident) r draws result timer prio ra q (sapi rp : UInt8) qos, ActReqOk r → ra.length = 6 →
    0xc0000000 ≤ q → q < 0xffffffff → sapi.toNat < 16 → qos.length ≤ 22 →
    ∃ s tr, phRun cfg who yes ph0 (phActivation r draws result timer prio ra q sapi rp qos) = .ok (s, tr) ∧
      ∃ pco addr p k ph, (PhOut.sg (.sm (.actAcc r.msId r.nsapi pco addr p k)), ph) ∈ tr

/-! ## The histories that refute them -/

def phTrace : Res (Phone × List PhSeen) → List PhSeen
  | .ok x => x.2
  | _ => []

def phState : Res (Phone × List PhSeen) → Phone
  | .ok x => x.1
  | _ => ph0

theorem ph_ran {cfg : GmmCfg} {l : List PhEv}
    (h : (match phRun cfg sgWho yes ph0 l with | .ok _ => true | _ => false) = true) :
    phRun cfg sgWho yes ph0 l = .ok (phState (phRun cfg sgWho yes ph0 l), phTrace (phRun cfg sgWho yes ph0 l)) := by
  cases hr : phRun cfg sgWho yes ph0 l with
  | ok x => rfl
  | err e => rw [hr] at h; cases h
  | ub f => rw [hr] at h; cases h

/-- The network gives the mobile station another P-TMSI while the PDP context is being activated. -/
def midRename : List PhEv :=
  [.sg (.actReq (sgReq 0 5 0xc0000001) []),
   .sg (.gmm (.rx (foreignTlli 0xc0000001) (acceptMsg 1 0x4a 4 [0x62, 0xf2, 0x20, 0, 1, 0] (some 0xc0000005)))),
   .sg (.gmm (.rx (localTlli 0xc0000005)
     (Verif.Spec.Gmm.NetMsg.ptmsiRealloc 0xc0000009 [0x62, 0xf2, 0x20, 0, 1, 0] 0 none).encode)),
   .sg (.gmm (.rx (localTlli 0xc0000009) (actAccMsg 3 4 [0, 0, 0])))]

theorem carries_lt {ph : Phone} {t sapi n : Nat} (h : Carries ph t sapi n) :
    ∃ m e, ph.sn.find t = some m ∧ m.sne n = some e ∧ e.sapi = sapi := by
  unfold Carries Sndcp.byDlciNsapi at h
  split at h
  · cases h
  · rename_i m hm
    split at h
    · rename_i e he
      split at h
      · rename_i hs; exact ⟨m, e, hm, he, hs⟩
      · cases h
    · cases h

/-- **C166 is violated**: SM is not told of the new P-TMSI, so that SNDCP knows the PDP context by the old TLLI. -/
theorem c166_violated : ¬ C166Statement := by
  intro h
  have hr := ph_ran (cfg := defaultCfg) (l := midRename) (by decide +kernel)
  have h0 := h defaultCfg sgWho yes midRename _ _ (by
      intro e he
      simp only [midRename, List.mem_cons, List.not_mem_nil, or_false] at he
      rcases he with rfl | rfl | rfl | rfl <;> trivial) hr
  have hx : (phTrace (phRun defaultCfg sgWho yes ph0 midRename)).filterMap (fun y =>
      match y with
      | (.sg (.sm (.actAcc id n _ _ _ _)), ph) => some (id, n, ph.up.gmm.es.map fun g =>
          (g.imsi, ph.sn.snmes.all fun m => decide (m.tlli ≠ g.tlli)))
      | _ => none) = [(0, 5, [((sgWho 0).imsi, true)])] := by decide +kernel
  have hm : (0, 5, [((sgWho 0).imsi, true)]) ∈ (phTrace (phRun defaultCfg sgWho yes ph0 midRename)).filterMap (fun y =>
      match y with
      | (.sg (.sm (.actAcc id n _ _ _ _)), ph) => some (id, n, ph.up.gmm.es.map fun g =>
          (g.imsi, ph.sn.snmes.all fun m => decide (m.tlli ≠ g.tlli)))
      | _ => none) := by rw [hx]; exact List.mem_singleton.2 rfl
  obtain ⟨⟨o, ph⟩, hy, hf⟩ := List.mem_filterMap.1 hm
  match o, hf with
  | .sg (.sm (.actAcc id n pco addr p k)), hf =>
    dsimp only at hf
    injection hf with hf
    injection hf with hid hf
    injection hf with hn hf
    subst hid hn
    obtain ⟨g, gs, hg, hg1, -⟩ := List.map_eq_cons_iff.1 hf
    injection hg1 with hg1 hg2
    obtain ⟨sapi, hc⟩ := h0 _ _ pco addr p k ph hy g (by rw [hg]; exact List.mem_cons_self) hg1
    obtain ⟨m, e, hfm, -⟩ := carries_lt hc
    have hmm := List.mem_of_find?_eq_some hfm
    have hmt := List.find?_some hfm
    have := List.all_eq_true.1 hg2 m hmm
    simp only [decide_eq_true_eq] at this hmt
    exact this hmt

/-- A request that leaves the QoS profile to the network. -/
def noQos : ActReq := { sgReq 0 5 0xc0000001 with qos := [] }

/-- **C168 is violated**: if the user leaves the QoS profile to the network, the length of the granted profile is not
stored, SNDCP cannot read it, and the user never hears of the PDP context. -/
theorem c168_violated : ¬ C168Statement := by
  intro h
  obtain ⟨s, tr, e, pco, addr, p, k, ph, hm⟩ := h defaultCfg sgWho noQos [] 1 0x4a 4 [0x62, 0xf2, 0x20, 0, 1, 0] 0xc0000005 3 4
    [0, 0, 0] ⟨by decide, by decide, by decide, by decide⟩ rfl (by decide) (by decide) (by decide) (by decide)
  have hr := ph_ran (cfg := defaultCfg)
    (l := phActivation noQos [] 1 0x4a 4 [0x62, 0xf2, 0x20, 0, 1, 0] 0xc0000005 3 4 [0, 0, 0]) (by decide +kernel)
  rw [hr] at e
  injection e with e
  injection e with _ e
  have hx : (phTrace (phRun defaultCfg sgWho yes ph0
      (phActivation noQos [] 1 0x4a 4 [0x62, 0xf2, 0x20, 0, 1, 0] 0xc0000005 3 4 [0, 0, 0]))).all (fun y =>
      match y with
      | (.sg (.sm (.actAcc _ _ _ _ _ _)), _) => false
      | _ => true) = true := by decide +kernel
  rw [e] at hx
  exact absurd (List.all_eq_true.1 hx _ hm) Bool.false_ne_true

/-! ## SNDCP has the entity when it answers -/

theorem find_rf {t : Nat} {m' : Sndcp.Snme} (ht : m'.tlli = t) : ∀ (l : List Sndcp.Snme) (m : Sndcp.Snme),
    l.find? (fun m => m.tlli = t) = some m →
    (Sndcp.replaceFirst t m' l).find? (fun m => m.tlli = t) = some m' := by
  intro l
  induction l with
  | nil => intro m h; cases h
  | cons a l ih =>
    intro m h
    unfold Sndcp.replaceFirst
    rw [List.find?_cons] at h
    by_cases ha : a.tlli = t
    · rw [if_pos ha, List.find?_cons]
      simp [ht]
    · rw [if_neg ha, List.find?_cons]
      rw [decide_eq_false ha] at h ⊢
      exact ih m h

theorem carries_of {s : Phone} {t n : Nat} {m : Sndcp.Snme} {e : Sndcp.Sne} (h : s.sn.find t = some m)
    (he : m.sne n = some e) : Carries s t e.sapi n := by
  unfold Carries Sndcp.byDlciNsapi
  rw [h]
  dsimp only
  rw [he]
  dsimp only
  rw [if_pos rfl]
  rfl

theorem activateRest_rsp {c c' : Sndcp.SnCtx} {o : List Sndcp.SnOut} {t0 n0 : Nat} {m : Sndcp.Snme} {e : Sndcp.Sne} {q : Bool}
    (hf : c.find t0 = some m) (he : m.sne n0 = some e) (h : Sndcp.activateRest c t0 n0 m e q = (c', o)) {t n : Nat}
    (hm : Sndcp.SnOut.activateRsp t n ∈ o) : ∃ m e, c'.find t = some m ∧ m.sne n = some e := by
  have ht : m.tlli = t0 := by simpa using List.find?_some hf
  unfold Sndcp.activateRest at h
  split at h
  · unfold Sndcp.activateMs at h
    split at h
    · injection h with h1 h2; subst h2; cases hm
    · split at h
      · injection h with h1 h2; subst h2; rw [List.mem_singleton] at hm; cases hm
      · injection h with h1 h2; subst h1 h2; rw [List.mem_singleton] at hm
        injection hm with h1 h2
        subst h1 h2
        exact ⟨m, e, ht ▸ hf, he⟩
  · injection h with h1 h2; subst h2; cases hm

theorem activateIn_rsp {c c' : Sndcp.SnCtx} {o : List Sndcp.SnOut} {t0 n0 p0 : Nat} {m : Sndcp.Snme} {q : Bool}
    (hf : c.find t0 = some m) (h : Sndcp.activateIn c t0 n0 p0 m q = .ok (c', o)) {t n : Nat}
    (hm : Sndcp.SnOut.activateRsp t n ∈ o) : ∃ m e, c'.find t = some m ∧ m.sne n = some e := by
  have ht : m.tlli = t0 := by simpa using List.find?_some hf
  unfold Sndcp.activateIn at h
  split at h
  · cases h
  · split at h
    · rename_i e he
      injection h with h
      exact activateRest_rsp hf he h hm
    · split at h
      · cases h
      · dsimp only at h
        injection h with h
        refine activateRest_rsp (m := m.set n0 (some { sapi := p0, nsapi := n0 })) ?_ ?_ h hm
        · exact find_rf (by exact ht) _ _ hf
        · show (if n0 = n0 then _ else _) = _
          rw [if_pos rfl]

/-- When SNDCP answers SNSM-ACTIVATE.ind, it has the entity. -/
theorem ent_rsp {c c' : Sndcp.SnCtx} {o : List Sndcp.SnOut} {p : Sndcp.SnPrim} (h : Sndcp.entStep c p = .ok (c', o)) {t n : Nat}
    (hm : Sndcp.SnOut.activateRsp t n ∈ o) : ∃ m e, c'.find t = some m ∧ m.sne n = some e := by
  cases p with
  | activateInd t0 n0 p0 q =>
    simp only [Sndcp.entStep, Sndcp.activateInd] at h
    split at h
    · rename_i m hf; exact activateIn_rsp hf h hm
    · exact activateIn_rsp (by unfold Sndcp.SnCtx.find; simp) h hm
  | deactivateInd t0 n0 =>
    simp only [Sndcp.entStep, Sndcp.deactivateInd] at h
    split at h
    · cases h
    · split at h
      · cases h
      · split at h
        · cases h
        · injection h with h; injection h with h1 h2; subst h2; rw [List.mem_singleton] at hm; cases hm
  | llAssignInd a b =>
    simp only [Sndcp.entStep, Sndcp.llAssignInd] at h
    split at h
    · cases h
    · injection h with h; injection h with h1 h2; subst h2; cases hm
  | snXidReq t0 p0 n0 b =>
    simp only [Sndcp.entStep, Sndcp.snXidReq] at h
    split at h
    · cases h
    · split at h
      · cases h
      · split at h
        · cases h
        · split at h
          · cases h
          · injection h with h; injection h with h1 h2; subst h2; rw [List.mem_singleton] at hm; cases hm
  | llXidCnf t0 p0 =>
    simp only [Sndcp.entStep, Sndcp.llXidCnf] at h
    split at h
    · cases h
    · rename_i m hf
      split at h
      · cases h
      · rename_i e he
        have ht : m.tlli = t0 := by simpa using List.find?_some hf
        injection h with h; injection h with h1 h2; subst h1 h2
        rcases List.mem_append.1 hm with hm | hm
        · split at hm
          · rw [List.mem_singleton] at hm
            injection hm with h1 h2
            subst h1 h2
            refine ⟨m.set e.nsapi (some { e with actPending := false, xidPending := false }), _, ?_, by
              show (if _ then _ else _) = _; rw [if_pos rfl]⟩
            subst ht
            exact find_rf (by rfl) _ _ hf
          · cases hm
        · split at hm
          · rw [List.mem_singleton] at hm; cases hm
          · cases hm

/-! ## When SM reports a PDP context active -/

/-- ACTIVATE PDP CONTEXT REJECT with cause 0. -/
def RejZero (b : Octets) : Prop := ∃ a l, b = a :: 0x43 :: 0 :: l

theorem dispatch_acc {c c' : SmCtx} {id i : Nat} {s : Sme} {ev : SmEv} {pre o : List SmOut} {rc : Option Errno}
    (h : smDispatch c id i s ev pre = .ok (c', o, rc)) {k n : Nat} {pco : Octets} {addr : PdpAddr} {p : Nat} {q : Octets}
    (hm : SmOut.actAcc k n pco addr p q ∈ o) (hp : SmOut.actAcc k n pco addr p q ∉ pre) :
    k = id ∧ n = s.nsapi ∧ (ev = .rxRej 0 ∨ ev = .nsapiActivated) := by
  rcases dispatch_ok h with ⟨s', o', hf, rfl, rfl, -⟩ | ⟨-, -, rfl, -⟩
  · rcases List.mem_append.1 hm with hm | hm
    · exact absurd hm hp
    · rcases smFsm_some hf with ⟨-, -, -, rfl⟩ | ⟨-, rfl, ⟨-, rfl⟩ | ⟨-, rfl⟩⟩ | ⟨-, -, rfl⟩ | ⟨cause, x, rfl, -, -, hx, rfl⟩ | ⟨x, rfl, -, -, hx, rfl⟩
      · rw [List.mem_singleton] at hm; unfold establishOut at hm; cases hm
      · rw [List.mem_singleton] at hm; unfold txActReq at hm; cases hm
      · rw [List.mem_singleton] at hm; unfold snsmActOut at hm; cases hm
      · cases hm
      · rw [List.mem_singleton] at hm
        rcases (actCnf_ok hx).2 with ⟨rfl, rfl⟩ | ⟨-, rfl⟩
        · injection hm with h1 h2
          exact ⟨h1, h2, Or.inl rfl⟩
        · cases hm
      · rw [List.mem_singleton] at hm
        rcases (actCnf_ok hx).2 with ⟨-, rfl⟩ | ⟨-, rfl⟩
        · injection hm with h1 h2
          exact ⟨h1, h2, Or.inr rfl⟩
        · cases hm
  · exact absurd hm hp

theorem rej_zero {s s' : Sme} {b : Octets} (h : rxRejBody s b = (s', .ok 0)) (ht : rd b 1 = .ok 0x43) : RejZero b := by
  unfold rxRejBody at h
  split at h
  · injection h with _ h; cases h
  · rename_i hl
    match b, hl, h, ht with
    | [], hl, _, _ => exact absurd hl (by decide)
    | [_], hl, _, _ => exact absurd hl (by simp)
    | [_, _], hl, _, _ => exact absurd hl (by simp)
    | a :: x :: y :: l, hl, h, ht =>
      have hx : x = 0x43 := by
        have : rd (a :: x :: y :: l) 1 = .ok x.toNat := rfl
        rw [this] at ht
        injection ht with ht
        exact UInt8.toNat_inj.1 ht
      have hy : y = 0 := by
        have h2 : rd (a :: x :: y :: l) 2 = .ok y.toNat := rfl
        unfold rdK at h
        rw [h2] at h
        dsimp only at h
        have : y.toNat = 0 := by
          split at h
          · split at h
            · injection h with _ h; injection h
            · injection h with _ h; cases h
            · injection h with _ h; cases h
          · injection h with _ h; injection h
        exact UInt8.toNat_inj.1 this
      exact ⟨a, l, by rw [hx, hy]⟩

/-- SM reports a PDP context active only when SNDCP is ready, or when the network rejects it with cause 0. -/
theorem sm_acc {c c' : SmCtx} {ev : SmIn} {o : List SmOut} {rc : Option Errno} (hi : SmInv c)
    (h : smStep c ev = .ok (c', o, rc)) {k n : Nat} {pco : Octets} {addr : PdpAddr} {p : Nat} {q : Octets}
    (hm : SmOut.actAcc k n pco addr p q ∈ o) :
    (∃ t, ev = .snsmActRsp t n ∧ c.msByTlli t = some k) ∨ ∃ sess b, ev = .unitdataInd sess b ∧ RejZero b := by
  have hd : ∀ {c : SmCtx} {id i : Nat} {s : Sme} {e : SmEv}, smDispatch c id i s e [] = .ok (c', o, rc) →
      e ≠ .rxRej 0 → e ≠ .nsapiActivated → False := by
    intro c id i s e h h1 h2
    obtain ⟨-, -, h3 | h3⟩ := dispatch_acc h hm (by simp)
    · exact h1 h3
    · exact h2 h3
  have hnil : ∀ {c : SmCtx} {e : Option Errno}, Res.ok (c, ([] : List SmOut), e) = Res.ok (c', o, rc) → False := by
    intro c e h
    injection h with h
    injection h with _ h
    injection h with h
    subst h
    cases hm
  cases ev with
  | actReq r =>
    simp only [smStep] at h
    have hs : ∀ c, startAct c r = .ok (c', o, rc) → False := by
      intro c h
      unfold startAct at h
      split at h
      · cases h
      · split at h
        · cases h
        · exact hd h (fun h => (by cases h)) (fun h => (by cases h))
    unfold actReqStep at h
    split at h
    · cases h
    · split at h
      · cases h
      · split at h
        · cases h
        · split at h
          · split at h
            · split at h
              · exact (hnil h).elim
              · exact (hs _ h).elim
            · cases h
          · exact (hs _ h).elim
  | estAcc sess a g t =>
    simp only [smStep] at h
    rcases withSess_cases h with h | ⟨id, i, s, -, -, -, -, -, h⟩
    · exact (hnil h.symm).elim
    · exact (hd h (fun h => (by cases h)) (fun h => (by cases h))).elim
  | estRej sess =>
    simp only [smStep] at h
    rcases withSess_cases h with h | ⟨id, i, s, -, -, -, -, -, h⟩
    · exact (hnil h.symm).elim
    · exact (hd h (fun h => (by cases h)) (fun h => (by cases h))).elim
  | relInd sess =>
    simp only [smStep] at h
    rcases withSess_cases h with h | ⟨id, i, s, -, -, -, -, -, h⟩
    · exact (hnil h.symm).elim
    · exact (hd h (fun h => (by cases h)) (fun h => (by cases h))).elim
  | unitdataInd sess b =>
    simp only [smStep] at h
    rcases withSess_cases h with h | ⟨id, i, s, -, -, -, -, -, h⟩
    · exact (hnil h.symm).elim
    · unfold smRx at h
      split at h
      · exact (hnil h).elim
      · split at h
        · exact (hnil h).elim
        · cases h
        · rename_i ty hty
          split at h
          · split at h
            · exact (hd h (fun h => (by cases h)) (fun h => (by cases h))).elim
            · exact (hnil h).elim
            · cases h
          · split at h
            · rename_i hty3
              split at h
              · rename_i s' cause hb
                obtain ⟨-, -, h3 | h3⟩ := dispatch_acc h hm (by simp)
                · injection h3 with h3
                  subst h3
                  exact Or.inr ⟨sess, b, rfl, rej_zero hb (hty3 ▸ hty)⟩
                · cases h3
              · exact (hnil h).elim
              · cases h
            · exact (hnil h).elim
  | modifyInd sess a g t st =>
    simp only [smStep] at h
    rcases withSess_cases h with h | ⟨id, i, s, -, -, -, -, -, h⟩
    · exact (hnil h.symm).elim
    · injection h with h
      injection h with _ h
      injection h with h
      rw [← h] at hm
      split at hm
      · unfold statusOuts at hm
        obtain ⟨j, -, hj⟩ := List.mem_filterMap.1 hm
        split at hj
        · split at hj
          · unfold snsmDeactOut at hj; cases hj
          · cases hj
        · cases hj
      · cases hm
  | snsmActRsp t n' =>
    simp only [smStep] at h
    rcases withNsapi_cases h with h | h | ⟨id, s, ht, hs, h⟩
    · exact (hnil h.symm).elim
    · cases h
    · obtain ⟨rfl, rfl, -⟩ := dispatch_acc h hm (by simp)
      refine Or.inl ⟨t, ?_, ht⟩
      rw [(hi.slot _ _ _ hs).1]
  | snsmDeactRsp t n' =>
    simp only [smStep] at h
    rcases withNsapi_cases h with h | h | ⟨id, s, -, -, h⟩
    · exact (hnil h.symm).elim
    · cases h
    · split at h
      · rename_i y hy
        obtain ⟨-, -, h3 | h3⟩ := dispatch_acc h hm (by
          rw [List.mem_singleton]
          rintro rfl
          unfold deactOut pcoToPrim at hy
          split at hy
          · rw [Res.bind_ok] at hy; cases hy
          · cases hy)
        · cases h3
        · cases h3
      · exact (hnil h).elim
      · cases h
  | timeout id i =>
    simp only [smStep] at h
    split at h
    · split at h
      · unfold smTimeout at h
        split at h
        · exact (hnil h).elim
        · exact (hnil h).elim
        · dsimp only at h
          split at h
          · cases h
          · split at h
            · exact (hd h (fun h => (by injection h with h; exact absurd h (by decide))) (fun h => (by cases h))).elim
            · injection h with h
              injection h with _ h
              injection h with h
              rw [← h] at hm
              unfold toPending establishOut at hm
              rw [List.mem_singleton] at hm
              cases hm
      · exact (hnil h).elim
    · exact (hnil h).elim

/-! ## What GMM gives to SM -/

/-- A message for SM comes from the network. -/
theorem layer_sm {cfg : GmmCfg} {ok : GmmOut → Bool} {L : GmmLayer} {ev : LayerEv} {r : LayerStep}
    (h : layerStep cfg ok L ev = .ok r) {x : List Nat × GmmOut} (hx : x ∈ sgSeen r) {s : Nat} {b : Octets}
    (hb : x.2 = .smUnitdataInd s b) : ∃ t, ev = .rx t b := by
  have hat : ∀ {L : GmmLayer} {k : Nat} {e : GmmEv}, stepAt cfg ok L k e = .ok r → e = .rx b := by
    intro L k e h
    unfold sgSeen at hx
    obtain ⟨o, ho, hx⟩ := List.mem_flatMap.1 hx
    obtain ⟨y, hy, rfl⟩ := List.mem_map.1 hx
    dsimp only at hb
    subst hb
    unfold stepAt at h
    split at h
    · obtain ⟨s1, hs, h⟩ := bind_eq_ok.1 h
      injection h with h; subst h
      rw [List.mem_singleton] at ho; subst ho
      exact step_sm hs hy
    · injection h with h; subst h
      cases ho
  have hfo : ∀ {L : GmmLayer} {k : Option Nat} {er : Errno} {e : GmmEv}, stepFound cfg ok L k er e = .ok r → e = .rx b := by
    intro L k er e h
    unfold stepFound at h
    split at h
    · exact hat h
    · injection h with h; subst h
      cases hx
  cases ev with
  | enable on =>
    exfalso
    simp only [layerStep] at h
    split at h
    · injection h with h; subst h
      cases hx
    · injection h with h; subst h
      unfold sgSeen at hx
      obtain ⟨o, ho, hx⟩ := List.mem_flatMap.1 hx
      obtain ⟨y, hy, rfl⟩ := List.mem_map.1 hx
      dsimp only at hb
      subst hb
      have : ∀ es : List Gmme, o ∈ (enableAll cfg ok on es).2 → False := by
        intro es
        induction es with
        | nil => intro h; cases h
        | cons g es ih =>
          intro h
          rcases List.mem_cons.1 h with rfl | h
          · have hs : gmmStep cfg ok g (.enable on) = .ok (dispatch cfg ok g [] (if on then .enable else .disable)) := rfl
            cases step_sm hs hy
          · exact ih h
      exact this _ ho
  | attachReq p i d prm => cases hat h
  | detachReq p ty off => cases hfo h
  | simAuthRsp a k x s kc => cases hfo h
  | establishReq s p i d prm => cases hat h
  | smUnitdataReq s pdu => cases hfo h
  | pageInd t => cases hfo h
  | llcTransmitted t => cases hfo h
  | rx t b' =>
    have := hfo h
    injection this with this
    exact ⟨t, by rw [this]⟩
  | fsmTimer k => cases hat h
  | t3314 k => cases hat h
  | t3312 k => cases hat h
  | t3316 k => cases hat h

/-! ## SM and GMM -/

/-- An output that is no report of an active PDP context. -/
def NoAcc (y : SgOut) : Prop := ∀ k n pco addr p q, y ≠ .sm (.actAcc k n pco addr p q)

theorem sgData_acc {cfg : GmmCfg} {ok : GmmOut → Bool} {s s' : SmGmm} {x : SmOut} {o : List SgOut}
    (hx : ∀ k n pco addr p q, x ≠ .actAcc k n pco addr p q) (h : sgData cfg ok s x = .ok (s', o)) :
    s'.sm = s.sm ∧ ∀ y ∈ o, NoAcc y := by
  unfold sgData at h
  split at h
  · obtain ⟨r, h1, h⟩ := bind_eq_ok.1 h
    injection h with h
    injection h with h3 h4
    subst h3 h4
    refine ⟨rfl, fun y hy => ?_⟩
    obtain ⟨z, hz, rfl⟩ := List.mem_map.1 hy
    intro k n pco addr p q hc
    cases hc
  · injection h with h
    injection h with h3 h4
    subst h3 h4
    refine ⟨rfl, fun y hy => ?_⟩
    rw [List.mem_singleton] at hy
    subst hy
    intro k n pco addr p q hc
    injection hc with hc
    exact hx _ _ _ _ _ _ hc

theorem sgUp_acc {cfg : GmmCfg} {ok : GmmOut → Bool} {s s' : SmGmm} {x : List Nat × GmmOut} {o : List SgOut}
    (hx : ∀ sess b, x.2 = .smUnitdataInd sess b → ¬ RejZero b) (hi : SmInv s.sm)
    (h : sgUp cfg ok s x = .ok (s', o)) : SmInv s'.sm ∧ ∀ y ∈ o, NoAcc y := by
  unfold sgUp at h
  split at h
  · injection h with h
    injection h with h3 h4
    subst h3 h4
    refine ⟨hi, fun y hy => ?_⟩
    rw [List.mem_singleton] at hy
    subst hy
    intro k n pco addr p q hc
    cases hc
  · rename_i e he
    obtain ⟨r, h1, h⟩ := bind_eq_ok.1 h
    have hr : ∀ x' ∈ r.2.1, ∀ k n pco addr p q, x' ≠ .actAcc k n pco addr p q := by
      rintro x' hx' k n pco addr p q rfl
      rcases sm_acc (o := r.2.1) (rc := r.2.2) hi h1 hx' with ⟨t, rfl, -⟩ | ⟨sess, b, rfl, hb⟩
      · unfold smInOf at he
        split at he <;> cases he
      · refine hx sess b ?_ hb
        generalize x.2 = z at he
        cases z <;> simp only [smInOf] at he <;> cases he
        rfl
    exact sgFold_inv (P := fun s => SmInv s.sm) (f := sgData cfg ok) _ ⟨r.1, s.gmm⟩ _ _
      (fun z hz s s' o hp hf => by
        obtain ⟨k1, k2⟩ := sgData_acc (hr z hz) hf
        exact ⟨k1 ▸ hp, k2⟩) (step_inv (o := r.2.1) (rc := r.2.2) hi h1) h

theorem sgDown_acc {cfg : GmmCfg} {ok : GmmOut → Bool} {who : Ident} {draws : List Nat} {s s' : SmGmm} {x : SmOut}
    {o : List SgOut} (hx : ∀ k n pco addr p q, x ≠ .actAcc k n pco addr p q) (hi : SmInv s.sm)
    (h : sgDown cfg ok who draws s x = .ok (s', o)) : SmInv s'.sm ∧ ∀ y ∈ o, NoAcc y := by
  unfold sgDown at h
  split at h
  · obtain ⟨r, h1, h⟩ := bind_eq_ok.1 h
    refine sgFold_inv (P := fun s => SmInv s.sm) (f := sgUp cfg ok) _ ⟨s.sm, r.layer⟩ _ _
      (fun z hz s s' o hp hf => sgUp_acc (fun sess b hb => ?_) hp hf) hi h
    obtain ⟨t, ht⟩ := layer_sm h1 hz hb
    cases ht
  · obtain ⟨k1, k2⟩ := sgData_acc hx h
    exact ⟨k1 ▸ hi, k2⟩

/-- The event brings ACTIVATE PDP CONTEXT REJECT with cause 0. -/
def EvRejZero (e : SgEv) : Prop := ∃ t b, e = .gmm (.rx t b) ∧ RejZero b

/-- SM keeps its house in order, and reports an active PDP context only when SNDCP is ready. -/
theorem sgStep_acc {cfg : GmmCfg} {who : Nat → Ident} {ok : GmmOut → Bool} {s s' : SmGmm} {e : SgEv} {o : List SgOut}
    (hi : SmInv s.sm) (h : sgStep cfg who ok s e = .ok (s', o)) (hz : ¬ EvRejZero e) : SmInv s'.sm ∧
      ∀ y ∈ o, ∀ k n pco addr p q, y = .sm (.actAcc k n pco addr p q) →
        e = .snsmActRsp (s'.sm.ms k).tlli n := by
  have hsm : ∀ {w : Ident} {draws : List Nat} {i : SmIn}, (∀ t n, i ≠ .snsmActRsp t n) → (∀ t b, i ≠ .unitdataInd t b) →
      sgSm cfg ok w draws s i = .ok (s', o) → SmInv s'.sm ∧ ∀ y ∈ o, NoAcc y := by
    intro w draws i h2 h3 h
    obtain ⟨r, h1, h⟩ := bind_eq_ok.1 h
    have hr : ∀ x' ∈ r.2.1, ∀ k n pco addr p q, x' ≠ .actAcc k n pco addr p q := by
      rintro x' hx' k n pco addr p q rfl
      rcases sm_acc (o := r.2.1) (rc := r.2.2) hi h1 hx' with ⟨t, h, -⟩ | ⟨sess, b, h, -⟩
      · exact h2 _ _ h
      · exact h3 _ _ h
    exact sgFold_inv (P := fun s => SmInv s.sm) (f := sgDown cfg ok w draws) _ ⟨r.1, s.gmm⟩ _ _
      (fun z hz s s' o hp hf => sgDown_acc (hr z hz) hp hf) (step_inv (o := r.2.1) (rc := r.2.2) hi h1) h
  have lift : (SmInv s'.sm ∧ ∀ y ∈ o, NoAcc y) → SmInv s'.sm ∧
      ∀ y ∈ o, ∀ k n pco addr p q, y = .sm (.actAcc k n pco addr p q) → e = .snsmActRsp (s'.sm.ms k).tlli n :=
    fun ⟨h1, h2⟩ => ⟨h1, fun y hy k n pco addr p q hc => absurd hc (h2 y hy _ _ _ _ _ _)⟩
  cases e with
  | actReq r d => exact lift (hsm (fun _ _ h => (by cases h)) (fun _ _ h => (by cases h)) h)
  | timeout id n d => exact lift (hsm (fun _ _ h => (by cases h)) (fun _ _ h => (by cases h)) h)
  | snsmDeactRsp t n => exact lift (hsm (fun _ _ h => (by cases h)) (fun _ _ h => (by cases h)) h)
  | gmm ev =>
    apply lift
    obtain ⟨r, h1, h⟩ := bind_eq_ok.1 h
    refine sgFold_inv (P := fun s => SmInv s.sm) (f := sgUp cfg ok) _ ⟨s.sm, r.layer⟩ _ _
      (fun z hz' s s' o hp hf => sgUp_acc (fun sess b hb hr => ?_) hp hf) hi h
    obtain ⟨t, rfl⟩ := layer_sm h1 hz' hb
    exact hz ⟨t, b, rfl, hr⟩
  | snsmActRsp t n =>
    obtain ⟨r, h1, h⟩ := bind_eq_ok.1 h
    have hi' := step_inv (o := r.2.1) (rc := r.2.2) hi h1
    obtain ⟨c', os, rc⟩ := r
    simp only [smStep] at h1
    dsimp only at h hi'
    have hnil : os = [] → SmInv s'.sm ∧ ∀ y ∈ o, ∀ k n' pco addr p q, y = .sm (.actAcc k n' pco addr p q) →
        SgEv.snsmActRsp t n = .snsmActRsp (s'.sm.ms k).tlli n' := by
      rintro rfl
      injection h with h
      injection h with h3 h4
      subst h3 h4
      exact ⟨hi', fun y hy => by cases hy⟩
    rcases withNsapi_cases h1 with h1 | h1 | ⟨id, x, ht, hs, h1⟩
    · injection h1 with h1
      injection h1 with _ h1
      injection h1 with h1
      exact hnil h1
    · cases h1
    · rcases dispatch_ok h1 with ⟨x', o', hf, rfl, ho, -⟩ | ⟨-, -, ho, -⟩
      · rw [List.nil_append] at ho
        subst ho
        rcases smFsm_some hf with ⟨h2, -⟩ | ⟨-, -, ⟨h2, -⟩ | ⟨h2, -⟩⟩ | ⟨⟨h2, -⟩ | ⟨h2, -⟩, -⟩ | ⟨_, _, h2, -⟩ | ⟨y, -, -, -, hy, rfl⟩
        · cases h2
        · cases h2
        · cases h2
        · cases h2
        · cases h2
        · cases h2
        · rcases (actCnf_ok hy).2 with ⟨-, rfl⟩ | ⟨h2, -⟩
          · injection h with h
            injection h with h3 h4
            subst h3 h4
            refine ⟨hi', fun y hy k n' pco addr p q hc => ?_⟩
            rw [List.append_nil, List.mem_singleton] at hy
            subst hy
            injection hc with hc
            injection hc with hk hn
            subst hk hn
            have htl : (s.sm.ms id).tlli = t := by simpa using List.find?_some ht
            have h5 : ((s.sm.put id n (some x')).ms id).tlli = (s.sm.ms id).tlli := by
              show ((if id = id then (s.sm.ms id).setPdp n (some x') else s.sm.ms id)).tlli = _
              rw [if_pos rfl]
              rfl
            show SgEv.snsmActRsp t n = .snsmActRsp ((s.sm.put id n (some x')).ms id).tlli _
            rw [h5, htl, (hi.slot _ _ _ hs).1]
          · exact absurd rfl h2
      · exact hnil ho

/-! ## All layers -/

theorem phFold_inv {α : Type} {P : Phone → Prop} {Q : PhSeen → Prop} {f : Phone → α → Res (Phone × List PhSeen)} :
    ∀ (l : List α) (s s' : Phone) (o : List PhSeen),
    (∀ x ∈ l, ∀ s s' o, P s → f s x = .ok (s', o) → P s' ∧ ∀ y ∈ o, Q y) → P s → phFold f s l = .ok (s', o) →
    P s' ∧ ∀ y ∈ o, Q y := by
  intro l
  induction l with
  | nil =>
    intro s s' o _ hp h
    injection h with h
    injection h with h1 h2
    subst h1 h2
    exact ⟨hp, fun y hy => by cases hy⟩
  | cons x l ih =>
    intro s s' o hf hp h
    obtain ⟨r, h1, h⟩ := bind_eq_ok.1 h
    obtain ⟨t, h2, h⟩ := bind_eq_ok.1 h
    injection h with h
    injection h with h3 h4
    subst h3 h4
    obtain ⟨p1, q1⟩ := hf x List.mem_cons_self s r.1 r.2 hp h1
    obtain ⟨p2, q2⟩ := ih r.1 t.1 t.2 (fun x hx => hf x (List.mem_cons_of_mem _ hx)) p1 h2
    refine ⟨p2, fun y hy => ?_⟩
    rcases List.mem_append.1 hy with hy | hy
    · exact q1 y hy
    · exact q2 y hy

/-- A PDP context that is reported active carries packets under the TLLI SM has. -/
def AccGood (y : PhSeen) : Prop := ∀ k n pco addr p q, y.1 = .sg (.sm (.actAcc k n pco addr p q)) →
  ∃ sapi, Carries y.2 (y.2.up.sm.ms k).tlli sapi n

theorem phSn_acc {cfg : GmmCfg} {who : Nat → Ident} {ok : GmmOut → Bool} {s s' : Phone} {p : Sndcp.SnPrim}
    {o : List PhSeen} (hi : SmInv s.up.sm) (h : phSn cfg who ok s p = .ok (s', o)) :
    SmInv s'.up.sm ∧ ∀ y ∈ o, AccGood y := by
  unfold phSn at h
  split at h
  · rename_i r hr
    have := phFold_inv (P := fun x => SmInv x.up.sm ∧ x.sn = r.1) (Q := AccGood) (f := phBack cfg who ok) r.2 ⟨s.up, r.1⟩ s' o
      (by
        rintro z hz s1 s2 o1 ⟨hp1, hp2⟩ hb
        have hsm : ∀ e, ¬ EvRejZero e → (∀ t n, e = .snsmActRsp t n → Sndcp.SnOut.activateRsp t n ∈ r.2) →
            phSm cfg who ok s1 e = .ok (s2, o1) → (SmInv s2.up.sm ∧ s2.sn = r.1) ∧ ∀ y ∈ o1, AccGood y := by
          intro e he h2 hb
          obtain ⟨x, hx, hb⟩ := bind_eq_ok.1 hb
          injection hb with hb
          injection hb with h3 h4
          subst h3 h4
          obtain ⟨k1, k2⟩ := sgStep_acc (s' := x.1) (o := x.2) hp1 hx he
          refine ⟨⟨k1, hp2⟩, fun y hy k n pco addr p q hc => ?_⟩
          obtain ⟨w, hw, rfl⟩ := List.mem_map.1 hy
          injection hc with hc
          have hev := k2 w hw _ _ _ _ _ _ hc
          obtain ⟨m, e', hm, he'⟩ := ent_rsp (c' := r.1) (o := r.2) hr (h2 _ _ hev)
          exact ⟨_, carries_of (s := ⟨x.1, s1.sn⟩) (by rw [hp2]; exact hm) he'⟩
        cases z with
        | activateRsp t n =>
          refine hsm (.snsmActRsp t n) ?_ ?_ hb
          · rintro ⟨a, b, h, -⟩; cases h
          · rintro t' n' h; injection h with h1 h2; subst h1 h2; exact hz
        | deactivateRsp t n =>
          refine hsm (.snsmDeactRsp t n) ?_ ?_ hb
          · rintro ⟨a, b, h, -⟩; cases h
          · rintro t' n' h; cases h
        | llXidReq t q =>
          injection hb with hb
          injection hb with h3 h4
          subst h3 h4
          refine ⟨⟨hp1, hp2⟩, fun y hy k n pco addr p q hc => ?_⟩
          rw [List.mem_singleton] at hy; subst hy; cases hc
        | snXidCnf t q n =>
          injection hb with hb
          injection hb with h3 h4
          subst h3 h4
          refine ⟨⟨hp1, hp2⟩, fun y hy k n pco addr p q hc => ?_⟩
          rw [List.mem_singleton] at hy; subst hy; cases hc) ⟨hi, rfl⟩ h
    exact ⟨this.1.1, this.2⟩
  · injection h with h
    injection h with h3 h4
    subst h3 h4
    exact ⟨hi, fun y hy => by cases hy⟩
  · cases h

theorem phUp_acc {cfg : GmmCfg} {who : Nat → Ident} {ok : GmmOut → Bool} {s s' : Phone} {x : SgOut} {o : List PhSeen}
    (hx : NoAcc x) (hi : SmInv s.up.sm) (h : phUp cfg who ok s x = .ok (s', o)) :
    SmInv s'.up.sm ∧ ∀ y ∈ o, AccGood y := by
  have hleave : .ok (phLeave s (.sg x)) = Res.ok (s', o) → SmInv s'.up.sm ∧ ∀ y ∈ o, AccGood y := by
    intro h
    injection h with h
    injection h with h3 h4
    subst h3 h4
    refine ⟨hi, fun y hy k n pco addr p q hc => ?_⟩
    rw [List.mem_singleton] at hy; subst hy
    injection hc with hc
    exact absurd hc (hx _ _ _ _ _ _)
  unfold phUp at h
  split at h
  · exact phSn_acc hi h
  · exact phSn_acc hi h
  · split at h
    · obtain ⟨r, h1, h⟩ := bind_eq_ok.1 h
      injection h with h
      injection h with h3 h4
      subst h3 h4
      obtain ⟨k1, k2⟩ := phSn_acc (s' := r.1) (o := r.2) hi h1
      refine ⟨k1, fun y hy => ?_⟩
      rcases List.mem_cons.1 hy with rfl | hy
      · intro k n pco addr p q hc; cases hc
      · exact k2 y hy
    · exact hleave h
  · exact hleave h

theorem phStep_acc {cfg : GmmCfg} {who : Nat → Ident} {ok : GmmOut → Bool} {s s' : Phone} {e : PhEv} {o : List PhSeen}
    (he : e.Outside) (hz : ∀ t b, e = .sg (.gmm (.rx t b)) → ¬ RejZero b) (hi : SmInv s.up.sm)
    (h : phStep cfg who ok s e = .ok (s', o)) : SmInv s'.up.sm ∧ ∀ y ∈ o, AccGood y := by
  cases e with
  | sn p => exact phSn_acc hi h
  | sg e =>
    obtain ⟨r, h1, h⟩ := bind_eq_ok.1 h
    obtain ⟨k1, k2⟩ := sgStep_acc (s' := r.1) (o := r.2) hi h1 (by
      rintro ⟨t, b, rfl, hr⟩; exact hz t b rfl hr)
    refine phFold_inv (P := fun x => SmInv x.up.sm) (Q := AccGood) (f := phUp cfg who ok) r.2 ⟨r.1, s.sn⟩ s' o
      (fun z hz s s' o hp hf => phUp_acc (fun k n pco addr p q hc => ?_) hp hf) k1 h
    have := k2 z hz _ _ _ _ _ _ hc
    subst this
    exact he

theorem phRun_acc {cfg : GmmCfg} {who : Nat → Ident} {ok : GmmOut → Bool} : ∀ (l : List PhEv) (s s' : Phone)
    (o : List PhSeen), (∀ e ∈ l, PhEv.Outside e) → (∀ t b, .sg (.gmm (.rx t b)) ∈ l → ¬ RejZero b) → SmInv s.up.sm →
    phRun cfg who ok s l = .ok (s', o) → SmInv s'.up.sm ∧ ∀ y ∈ o, AccGood y := by
  intro l
  induction l with
  | nil =>
    intro s s' o _ _ hi h
    injection h with h
    injection h with h3 h4
    subst h3 h4
    exact ⟨hi, fun y hy => by cases hy⟩
  | cons e l ih =>
    intro s s' o he hz hi h
    obtain ⟨r, h1, h⟩ := bind_eq_ok.1 h
    obtain ⟨t, h2, h⟩ := bind_eq_ok.1 h
    injection h with h
    injection h with h3 h4
    subst h3 h4
    obtain ⟨k1, k2⟩ := phStep_acc (s' := r.1) (o := r.2) (he e List.mem_cons_self)
      (fun t b hb => hz t b (hb ▸ List.mem_cons_self)) hi h1
    obtain ⟨k4, k3⟩ := ih r.1 t.1 t.2 (fun x hx => he x (List.mem_cons_of_mem _ hx))
      (fun t b hb => hz t b (List.mem_cons_of_mem _ hb)) k1 h2
    refine ⟨k4, fun y hy => ?_⟩
    rcases List.mem_append.1 hy with hy | hy
    · exact k2 y hy
    · exact k3 y hy

/-- **C166** (partial): in every history without ACTIVATE PDP CONTEXT REJECT of cause 0, whenever the user is told that a
PDP context is active, SNDCP takes packets for it under the TLLI that SM has for the mobile station then.  Missing: that
this is GMM's TLLI. -/
theorem c166_partial (cfg : GmmCfg) (who : Nat → Ident) (ok : GmmOut → Bool) (l : List PhEv) (s : Phone) (tr : List PhSeen)
    (hout : ∀ e ∈ l, PhEv.Outside e) (hz : ∀ t b, .sg (.gmm (.rx t b)) ∈ l → ¬ RejZero b)
    (h : phRun cfg who ok ph0 l = .ok (s, tr)) (id n : Nat) (pco : Octets) (addr : PdpAddr) (p : Nat) (k : Octets) (ph : Phone)
    (hm : (PhOut.sg (.sm (.actAcc id n pco addr p k)), ph) ∈ tr) :
    ∃ sapi, Carries ph (ph.up.sm.ms id).tlli sapi n :=
  (phRun_acc l ph0 s tr hout hz smInit_inv h).2 _ hm _ _ _ _ _ _ rfl

/-! ## The whole activation -/

theorem phUp_leaves {cfg : GmmCfg} {who : Nat → Ident} {s : Phone} {i : List Nat} {a : GmmOut} (h : s.sn.snmes = []) :
    phUp cfg who yes s (.gmm i a) = .ok (phLeave s (.sg (.gmm i a))) := by
  cases a with
  | llgmmAssign old new gea kc =>
    simp only [phUp]
    split
    · have : Sndcp.entStep s.sn (.llAssignInd old new) = .err .eio := by
        simp only [Sndcp.entStep, Sndcp.llAssignInd, Sndcp.SnCtx.find, h, List.find?_nil]
      simp only [phSn, this, Res.bind_ok]
      rfl
    · rfl
  | _ => rfl

theorem phFold_leaves {cfg : GmmCfg} {who : Nat → Ident} {s : Phone} (h : s.sn.snmes = []) (l : List (List Nat × GmmOut)) :
    phFold (phUp cfg who yes) s (l.map fun x => .gmm x.1 x.2) =
      .ok (s, l.map fun x => (.sg (.gmm x.1 x.2), s)) := by
  induction l with
  | nil => rfl
  | cons x l ih =>
    rw [List.map_cons]
    show (phUp cfg who yes s (.gmm x.1 x.2) >>= fun r => phFold (phUp cfg who yes) r.1 (l.map fun x => .gmm x.1 x.2) >>= fun t =>
      Res.ok (t.1, r.2 ++ t.2)) = _
    rw [phUp_leaves h, Res.bind_ok]
    show (phFold (phUp cfg who yes) s (l.map fun x => .gmm x.1 x.2) >>= _) = _
    rw [ih]
    rfl

/-- The lengths SNDCP knows a QoS profile by. -/
def QosLen (n : Nat) : Prop := n = 3 ∨ n = 11 ∨ n = 12 ∨ n = 14 ∨ n = 16 ∨ n = 18 ∨ n = 20

theorem qosOk_len {q : Octets} (h : QosLen q.length) : qosOk q = true := by
  unfold qosOk
  unfold QosLen at h
  by_cases hu : q.length = 14 ∨ q.length = 18
  · have : ¬ (Qos.parse q).Safe := by
      rw [c56_decoder_partial]; omega
    cases hp : Qos.parse q with
    | err e => exact absurd (fun f h => by rw [hp] at h; cases h) this
    | ok d => rfl
    | ub f => rfl
  · by_cases hl : q.length = 20 ∨ q.length = 16 ∨ q.length = 12 ∨ q.length = 11
    · obtain ⟨d, hd, -⟩ := parse_long q hl
      rw [hd]
    · unfold Qos.parse
      rw [if_neg (by omega), if_pos (by omega)]

theorem phRun_cons {cfg : GmmCfg} {who : Nat → Ident} {ok : GmmOut → Bool} {s s' : Phone} {e : PhEv} {l : List PhEv}
    {o : List PhSeen} (h : phStep cfg who ok s e = .ok (s', o)) :
    phRun cfg who ok s (e :: l) = (phRun cfg who ok s' l >>= fun t => .ok (t.1, o ++ t.2)) := by
  show (phStep cfg who ok s e >>= fun r => phRun cfg who ok r.1 l >>= fun t => Res.ok (t.1, r.2 ++ t.2)) = _
  rw [h, Res.bind_ok]

theorem phRun_three {cfg : GmmCfg} {who : Nat → Ident} {ok : GmmOut → Bool} {s s1 s2 s3 : Phone} {a b c : PhEv}
    {o1 o2 o3 : List PhSeen} (h1 : phStep cfg who ok s a = .ok (s1, o1)) (h2 : phStep cfg who ok s1 b = .ok (s2, o2))
    (h3 : phStep cfg who ok s2 c = .ok (s3, o3)) : phRun cfg who ok s [a, b, c] = .ok (s3, o1 ++ (o2 ++ (o3 ++ []))) := by
  rw [phRun_cons h1, phRun_cons h2, phRun_cons h3]
  rfl

theorem phStep_leaves {cfg : GmmCfg} {who : Nat → Ident} {u u' : SmGmm} {sn : Sndcp.SnCtx} {e : SgEv}
    {l : List (List Nat × GmmOut)} (hs : sn.snmes = [])
    (h : sgStep cfg who yes u e = .ok (u', l.map fun x => .gmm x.1 x.2)) :
    phStep cfg who yes ⟨u, sn⟩ (.sg e) = .ok (⟨u', sn⟩, l.map fun x => (.sg (.gmm x.1 x.2), ⟨u', sn⟩)) := by
  show (sgStep cfg who yes u e >>= fun r => phFold (phUp cfg who yes) ⟨r.1, sn⟩ r.2) = _
  rw [h, Res.bind_ok]
  exact phFold_leaves hs l

/-- The three events of an activation the network accepts, and what is handed out in each. -/
theorem ph_activation (cfg : GmmCfg) (who : Nat → Ident) (r : ActReq) (draws : List Nat) (result timer prio : UInt8)
    (ra : Octets) (q : Nat) (sapi rp : UInt8) (qos : Octets) (hr : ActReqOk r) (hra : ra.length = 6) (hq : q < 0xffffffff)
    (hsapi : sapi.toNat < 16) (hqos : qos.length ≤ 22) (hlen : QosLen r.qos.length) :
    ∃ p1 p2 p3 : Phone, ∃ b0 a b : GmmOut, ∃ m0 : Octets, ∃ s1 : Sme, ∃ ls : List (List Nat × GmmOut),
      b0 = .llUnitdata (foreignTlli r.ptmsi) m0 ∧
      phStep cfg who yes ph0 (.sg (.actReq r draws)) = .ok (p1, [(.sg (.gmm (who r.msId).imsi b0), p1)]) ∧
      phStep cfg who yes p1 (.sg (.gmm (.rx (foreignTlli r.ptmsi) (acceptMsg result timer prio ra (some q))))) =
        .ok (p2, ls.map fun x => (.sg (.gmm x.1 x.2), p2)) ∧
      ls.map Prod.snd = [a, b, .llUnitdata (localTlli q) attachCompl] ++
        (if 0 = r.msId then [.llUnitdata (localTlli q) (buildActReq s1)] else []) ∧
      (∃ gea kc, a = .llgmmAssign (foreignTlli r.ptmsi) (localTlli q) gea kc) ∧ llcOpOf b = none ∧
      s1.ti = 0 ∧ s1.nsapi = r.nsapi ∧ s1.pco = r.pco ∧ s1.qosLen = r.qos.length ∧ s1.qos.length = 22 ∧ s1.apn = r.apn ∧
      s1.addr = r.addr ∧ (∃ l, m0 = 0x08 :: l) ∧ ((who r.msId).ra.length = 6 → m0.length ≤ 140) ∧
      ∃ pco addr pr k, phStep cfg who yes p2 (.sg (.gmm (.rx (localTlli q) (actAccMsg sapi rp qos)))) =
          .ok (p3, [(.sg (.sm (.actAcc r.msId r.nsapi pco addr pr k)), p3)]) ∧
        Carries p3 (localTlli q) sapi.toNat r.nsapi ∧
        ∃ g, p3.up.gmm.es = [g] ∧ g.imsi = (who r.msId).imsi ∧ g.tlli = localTlli q ∧ g.st = .reg := by
  obtain ⟨c1, s1, g1, b0, e1, h1, k1, k2, k3, k4, k5, t1, t2, t3, t4, t5, t6, t7, k6, k7, k8, k9, k10⟩ := sg_start cfg who hr draws
  obtain ⟨c2, g2, a, b, e2, x1, x2, x3, x4, h2, l1, l2, l3, l4, l5, ⟨gea, kc, l6⟩, l7⟩ := sg_accept cfg who h1 (by have := hr.nsapi; omega) k3 t1
    (t2.trans k1.symm) t4 t5 t6 result timer prio hra (show q < 0x100000000 by omega)
  obtain ⟨c3, s3, o1, e3, ⟨u, k, rfl, hk⟩, h3, m1, m2, m3, m4, m5⟩ := sg_activated cfg who h2 (by have := hr.nsapi; omega) k3 l2
    ((l3.trans t2).trans k1.symm) sapi rp hqos
  obtain ⟨c4, o2, e4, ⟨pco, addr, p, k', rfl⟩, h4⟩ := sg_ready cfg who (L := ⟨true, [g2]⟩) h3 hr.nsapi m4
    (by rw [m5, k4]; exact hr.pco) (m3.trans k2) (m1.trans l1)
  have hkl : qosOk k = true := qosOk_len (by rw [hk k7 (by rw [k6]; exact hr.qos), k6]; exact hlen)
  have f1 := phStep_leaves (sn := { ms := true }) (l := [((who r.msId).imsi, .llUnitdata (foreignTlli r.ptmsi) b0)]) rfl e1
  have f2 : ∃ l2 : List (List Nat × GmmOut), sgStep cfg who yes ⟨c1, ⟨true, [g1]⟩⟩
      (.gmm (.rx (foreignTlli r.ptmsi) (acceptMsg result timer prio ra (some q)))) =
        .ok (⟨c2, ⟨true, [g2]⟩⟩, l2.map fun x => .gmm x.1 x.2) ∧
      l2.map Prod.snd = [a, b, .llUnitdata (localTlli q) attachCompl] ++
        (if 0 = r.msId then [.llUnitdata (localTlli q) (buildActReq s1)] else []) := by
    rw [e2, k1]
    split
    · exact ⟨[(_, a), (_, b), (_, _), (_, _)], rfl, rfl⟩
    · exact ⟨[(_, a), (_, b), (_, _)], rfl, rfl⟩
  obtain ⟨ls, f2, hls⟩ := f2
  have f2 := phStep_leaves (sn := { ms := true }) rfl f2
  have hn : ¬ r.nsapi ≥ 16 := by have := hr.nsapi; omega
  have hent : ∃ m, Sndcp.entStep { ms := true } (.activateInd (localTlli q) r.nsapi sapi.toNat true) =
      .ok ({ ms := true, snmes := [m] }, [.activateRsp (localTlli q) r.nsapi]) ∧ m.tlli = localTlli q ∧
      m.sne r.nsapi = some { sapi := sapi.toNat, nsapi := r.nsapi } := by
    refine ⟨(⟨localTlli q, fun _ => none⟩ : Sndcp.Snme).set r.nsapi (some { sapi := sapi.toNat, nsapi := r.nsapi }), ?_, rfl, ?_⟩
    · simp only [Sndcp.entStep, Sndcp.activateInd, Sndcp.SnCtx.find, List.find?_nil, Sndcp.activateIn, if_neg hn,
        if_neg (show ¬ sapi.toNat ≥ 16 by omega), Sndcp.activateRest, if_true, Sndcp.activateMs, Sndcp.replaceFirst]
      rfl
    · show (if r.nsapi = r.nsapi then _ else _) = _
      rw [if_pos rfl]
  obtain ⟨m, hent, hm1, hm2⟩ := hent
  have f3 : phStep cfg who yes ⟨⟨c2, ⟨true, [g2]⟩⟩, { ms := true }⟩ (.sg (.gmm (.rx (localTlli q) (actAccMsg sapi rp qos)))) =
      .ok (⟨⟨c4, ⟨true, [g2]⟩⟩, { ms := true, snmes := [m] }⟩,
        [(.sg (.sm (.actAcc r.msId r.nsapi pco addr p k')), ⟨⟨c4, ⟨true, [g2]⟩⟩, { ms := true, snmes := [m] }⟩)]) := by
    show (sgStep cfg who yes ⟨c2, ⟨true, [g2]⟩⟩ (.gmm (.rx (localTlli q) (actAccMsg sapi rp qos))) >>= fun r =>
      phFold (phUp cfg who yes) ⟨r.1, { ms := true }⟩ r.2) = _
    rw [e3, Res.bind_ok]
    show (phSn cfg who yes ⟨⟨c3, ⟨true, [g2]⟩⟩, { ms := true }⟩ (.activateInd (c2.ms r.msId).tlli s1.nsapi sapi.toNat (qosOk k)) >>=
      fun r => phFold (phUp cfg who yes) r.1 [] >>= fun t => Res.ok (t.1, r.2 ++ t.2)) = _
    have : phSn cfg who yes ⟨⟨c3, ⟨true, [g2]⟩⟩, { ms := true }⟩ (.activateInd (c2.ms r.msId).tlli s1.nsapi sapi.toNat (qosOk k)) =
        .ok (⟨⟨c4, ⟨true, [g2]⟩⟩, { ms := true, snmes := [m] }⟩,
        [(.sg (.sm (.actAcc r.msId r.nsapi pco addr p k')), ⟨⟨c4, ⟨true, [g2]⟩⟩, { ms := true, snmes := [m] }⟩)]) := by
      unfold phSn
      rw [hkl, l1, k2, hent]
      show (phSm cfg who yes ⟨⟨c3, ⟨true, [g2]⟩⟩, { ms := true, snmes := [m] }⟩ (.snsmActRsp (localTlli q) r.nsapi) >>= fun r =>
        phFold (phBack cfg who yes) r.1 [] >>= fun t => Res.ok (t.1, r.2 ++ t.2)) = _
      unfold phSm
      rw [e4, Res.bind_ok]
      rfl
    rw [this, Res.bind_ok]
    rfl
  refine ⟨_, _, _, _, a, b, b0, s1, ls, rfl, f1, f2, hls, ⟨gea, kc, by rw [l6, t1]⟩, l7, k5, k2, k4, k6, k7, k8, k9, t7, k10,
    pco, addr, p, k', f3, carries_of (e := { sapi := sapi.toNat, nsapi := r.nsapi }) (m := m) ?_ hm2, g2, rfl, l4.trans t3, l2, l5⟩
  unfold Sndcp.SnCtx.find
  simp [hm1]

/-- **C168** (partial): if the user asks with a QoS profile of one of the lengths SNDCP knows, the user is told, and at
that moment SNDCP takes packets for the PDP context under the mobile station's new TLLI and the granted SAPI, and
the mobile station is registered under this TLLI. -/
theorem c168_partial (cfg : GmmCfg) (who : Nat → Ident) (r : ActReq) (draws : List Nat) (result timer prio : UInt8)
    (ra : Octets) (q : Nat) (sapi rp : UInt8) (qos : Octets) (hr : ActReqOk r) (hra : ra.length = 6) (hq : q < 0xffffffff)
    (hsapi : sapi.toNat < 16) (hqos : qos.length ≤ 22) (hlen : QosLen r.qos.length) :
    ∃ s tr, phRun cfg who yes ph0 (phActivation r draws result timer prio ra q sapi rp qos) = .ok (s, tr) ∧
      ∃ pco addr p k ph, (PhOut.sg (.sm (.actAcc r.msId r.nsapi pco addr p k)), ph) ∈ tr ∧
        Carries ph (localTlli q) sapi.toNat r.nsapi ∧
        ∃ g, ph.up.gmm.es = [g] ∧ g.imsi = (who r.msId).imsi ∧ g.tlli = localTlli q ∧ g.st = .reg := by
  obtain ⟨p1, p2, p3, b0, a, b, m0, s1, ls, -, f1, f2, -, -, -, -, -, -, -, -, -, -, -, -, pco, addr, pr, k, f3, hc, hg⟩ :=
    ph_activation cfg who r draws result timer prio ra q sapi rp qos hr hra hq hsapi hqos hlen
  refine ⟨_, _, phRun_three f1 f2 f3, pco, addr, pr, k, p3, ?_, hc, hg⟩
  exact List.mem_append_right _ (List.mem_append_right _ List.mem_cons_self)

/-- The hypotheses are met. -/
example : ActReqOk (sgReq 0 5 0xc0000001) ∧ QosLen (sgReq 0 5 0xc0000001).qos.length := ⟨⟨by decide, by decide, by decide, by decide⟩, Or.inl rfl⟩

/-- A history that the partial theorem of C166 covers, in which a PDP context is reported active. -/
example : (∀ e ∈ midRename, PhEv.Outside e) ∧ (∀ t b, .sg (.gmm (.rx t b)) ∈ midRename → ¬ RejZero b) := by
  constructor
  · intro e he
    simp only [midRename, List.mem_cons, List.not_mem_nil, or_false] at he
    rcases he with rfl | rfl | rfl | rfl <;> trivial
  · intro t b he
    simp only [midRename, List.mem_cons, List.not_mem_nil, or_false, PhEv.sg.injEq, reduceCtorEq, SgEv.gmm.injEq,
      LayerEv.rx.injEq, false_or] at he
    rcases he with ⟨-, rfl⟩ | ⟨-, rfl⟩ | ⟨-, rfl⟩ <;> rintro ⟨a, l, h⟩
    · injection h with _ h; injection h with h _; exact absurd h (by decide)
    · injection h with _ h; injection h with h _; exact absurd h (by decide)
    · injection h with _ h; injection h with h _; exact absurd h (by decide)

end Verif.Props
