import Verif.Sm.OverGmm
import Verif.Sm.EntityLemmas
import Verif.Props.GmmStack
import Verif.Props.GmmOverLlc
/-!
# C163: a PDP context is activated through SM and GMM
-/
namespace Verif.Props
open Verif Verif.Gmm Verif.Sm Verif.Gsm

/-- ACTIVATE PDP CONTEXT ACCEPT with its mandatory elements. -/
def actAccMsg (sapi prio : UInt8) (qos : Octets) : Octets :=
  [0x8a, 0x42, sapi, UInt8.ofNat qos.length] ++ qos ++ [prio]

/-- A request the library takes: lengths within the limits of the primitive, an NSAPI of a PDP context, and the
P-TMSI of an earlier attach. -/
structure ActReqOk (r : ActReq) : Prop where
  nsapi : 5 ≤ r.nsapi ∧ r.nsapi ≤ 15
  qos   : r.qos.length ≤ 22
  pco   : r.pco.length ≤ 253
  ptmsi : r.ptmsi < 0xffffffff

/-- ACTIVATE PDP CONTEXT REQUEST for an NSAPI. -/
def IsActReq (nsapi : Nat) (b : Octets) : Prop :=
  ∃ a l, b = a :: 0x41 :: UInt8.ofNat nsapi :: l ∧ a.toNat % 16 = 10

/-- The user asks for a PDP context, the network accepts the mobile station with a new P-TMSI, it accepts the
PDP context, and SNDCP is ready. -/
def activation (r : ActReq) (draws : List Nat) (result timer prio : UInt8) (ra : Octets) (q : Nat) (sapi rp : UInt8)
    (qos : Octets) : List SgEv :=
  [.actReq r draws, .gmm (.rx (foreignTlli r.ptmsi) (acceptMsg result timer prio ra (some q))),
   .gmm (.rx (localTlli q) (actAccMsg sapi rp qos)), .snsmActRsp (localTlli q) r.nsapi]

/-- C163: when the network accepts everything, the mobile station sends ACTIVATE PDP CONTEXT REQUEST and the user
is told that the PDP context is active. -/
def C163Statement : Prop :=
  ∀ cfg (who : Nat → Ident) r draws result timer prio ra q sapi rp qos, ActReqOk r → ra.length = 6 →
    0xc0000000 ≤ q → q < 0xffffffff → qos.length ≤ 22 →
    ∃ s outs, sgRun cfg who yes sg0 (activation r draws result timer prio ra q sapi rp qos) = .ok (s, outs) ∧
      (∃ b, SgOut.gmm (who r.msId).imsi (.llUnitdata (localTlli q) b) ∈ outs ∧ IsActReq r.nsapi b) ∧
      ∃ pco addr p k, SgOut.sm (.actAcc r.msId r.nsapi pco addr p k) ∈ outs

/-! ## One mobile station with one context -/

/-- SM knows one mobile station, with one context. -/
structure OneCtx (c : SmCtx) (id n : Nat) (s : Sme) : Prop where
  order : c.order = [id]
  slot  : ∀ y, (c.ms id).pdp y = if y = n then some s else none

theorem one_bySess {c : SmCtx} {id n : Nat} {s : Sme} (h : OneCtx c id n s) (hn : n < 16) :
    c.bySess s.sess = some (id, n) := by
  unfold SmCtx.bySess
  rw [h.order]
  have : (c.ms id).slotOf s.sess = some n := by
    unfold SmMs.slotOf
    rw [List.find?_range_eq_some]
    refine ⟨?_, by simpa using hn, ?_⟩
    · rw [h.slot n, if_pos rfl]; simp
    · intro j hj
      rw [h.slot j, if_neg (by omega)]; rfl
  simp [this]

theorem one_withSess {c : SmCtx} {id n : Nat} {s : Sme} (h : OneCtx c id n s) (hn : n < 16)
    (k : Nat → Nat → Sme → SmRes) : withSess c s.sess k = k id n s := by
  unfold withSess
  rw [one_bySess h hn]
  dsimp only
  rw [h.slot n, if_pos rfl]

theorem one_put {c : SmCtx} {id n : Nat} {s : Sme} (h : OneCtx c id n s) (s' : Sme) :
    OneCtx (c.put id n (some s')) id n s' ∧ ((c.put id n (some s')).ms id).tlli = (c.ms id).tlli := by
  refine ⟨⟨h.order, fun y => ?_⟩, ?_⟩
  · show ((if id = id then (c.ms id).setPdp n (some s') else c.ms id)).pdp y = _
    rw [if_pos rfl]
    show (if y = n then some s' else (c.ms id).pdp y) = _
    rw [h.slot y]
    split <;> rfl
  · show ((if id = id then (c.ms id).setPdp n (some s') else c.ms id)).tlli = _
    rw [if_pos rfl]
    rfl

theorem one_gmm {c : SmCtx} {id n : Nat} {s : Sme} (h : OneCtx c id n s) (p g t : Nat) :
    OneCtx (c.setMs id (withGmm (c.ms id) p g t)) id n s ∧
    ((c.setMs id (withGmm (c.ms id) p g t)).ms id).tlli = t := by
  refine ⟨⟨h.order, fun y => ?_⟩, ?_⟩
  · show ((if id = id then withGmm (c.ms id) p g t else c.ms id)).pdp y = _
    rw [if_pos rfl]
    exact h.slot y
  · show ((if id = id then withGmm (c.ms id) p g t else c.ms id)).tlli = _
    rw [if_pos rfl]
    rfl

/-! ## The four steps at SM -/

theorem sm_start {r : ActReq} (h : ActReqOk r) :
    ∃ c s, smStep smInit (.actReq r) = .ok (c, [.establishReq 0 r.ptmsi r.ptmsiSig false], none) ∧
      OneCtx c r.msId r.nsapi s ∧ s.sess = 0 ∧ s.nsapi = r.nsapi ∧ s.st = .pending ∧ s.pco = r.pco ∧ s.ti = 0 ∧
      s.qosLen = r.qos.length ∧ s.qos.length = 22 ∧ s.apn = r.apn ∧ s.addr = r.addr := by
  obtain ⟨⟨h1, h2⟩, h3, h4, h5⟩ := h
  have hp : decide (r.ptmsi = Sm.reservedTmsi) = false := by
    apply decide_eq_false; unfold Sm.reservedTmsi; omega
  apply Exists.intro
  refine ⟨(toPending ⟨r.ptmsi, r.ptmsiSig, 0, fun _ => none⟩ (newSme 0 r)).1, ?_, ?_, rfl, rfl, rfl, rfl, rfl, rfl, ?_, rfl, rfl⟩
  · show actReqStep smInit r = _
    unfold actReqStep
    rw [if_neg (by unfold qosMax; omega), if_neg (by unfold pcoCtxMax; omega), if_neg (by unfold pcoPrimMax; omega)]
    rw [if_neg (show ¬ SmCtx.hasMs smInit r.msId = true by simp [SmCtx.hasMs, smInit])]
    unfold startAct
    rw [if_neg (by omega)]
    rw [if_neg (by
      show ¬ ((if r.msId = r.msId then freshMs else smInit.ms r.msId).pdp r.nsapi).isSome = true
      rw [if_pos rfl]; exact Bool.false_ne_true)]
    unfold smDispatch smFsm
    simp only [newSme, toPending, establishOut, SmCtx.setMs, smInit, if_true, hp, List.nil_append]
    rfl
  · refine ⟨rfl, fun y => ?_⟩
    simp only [SmCtx.put, SmCtx.setMs, SmMs.setPdp, if_true, freshMs]
    rfl
  · simp only [toPending, newSme, List.length_append, List.length_replicate, qosMax]
    omega

theorem sm_estAcc {c : SmCtx} {id n : Nat} {s : Sme} (h : OneCtx c id n s) (hn : n < 16) (hst : s.st = .pending)
    (p g t : Nat) : ∃ c', smStep c (.estAcc s.sess p g t) = .ok (c', [.unitdataReq id (buildActReq s)], none) ∧
      OneCtx c' id n s ∧ (c'.ms id).tlli = t := by
  obtain ⟨h1, h2⟩ := one_gmm h p g t
  obtain ⟨h3, h4⟩ := one_put h1 s
  refine ⟨_, ?_, h3, h4.trans h2⟩
  show withSess c s.sess _ = _
  rw [one_withSess h hn]
  unfold smDispatch smFsm
  rw [hst]
  rfl

theorem ack_mandatory (s : Sme) (sapi rp : UInt8) (qos : Octets) (hq : qos.length ≤ 22) :
    ∃ s', rxAckBody s (actAccMsg sapi rp qos) = (s', .ok ()) ∧ s'.sess = s.sess ∧ s'.nsapi = s.nsapi ∧
      s'.st = s.st ∧ s'.pco = s.pco := by
  have hl : (actAccMsg sapi rp qos).length = 5 + qos.length := by
    unfold actAccMsg; simp only [List.length_append, List.length_cons, List.length_nil]; omega
  have h2 : rd (actAccMsg sapi rp qos) 2 = .ok sapi.toNat := rfl
  have hb : (UInt8.ofNat qos.length).toNat = qos.length := by
    rw [UInt8.toNat_ofNat']; omega
  have h3 : rd (actAccMsg sapi rp qos) 3 = .ok qos.length := by
    have : rd (actAccMsg sapi rp qos) 3 = .ok (UInt8.ofNat qos.length).toNat := rfl
    rw [this, hb]
  obtain ⟨v, h4⟩ : ∃ v, rd (actAccMsg sapi rp qos) (4 + qos.length) = .ok v := ⟨_, rd_of_lt (by omega)⟩
  unfold rxAckBody
  rw [if_neg (by omega)]
  unfold rdK
  rw [h2]
  dsimp only
  rw [h3]
  dsimp only
  rw [if_neg (by unfold qosMax; omega), if_neg (by omega), if_neg (by omega), h4]
  dsimp only
  rw [if_neg (by omega)]
  exact ⟨_, rfl, rfl, rfl, rfl, rfl⟩

theorem sm_accept {c : SmCtx} {id n : Nat} {s : Sme} (h : OneCtx c id n s) (hn : n < 16) (hst : s.st = .pending)
    (sapi rp : UInt8) (qos : Octets) (hq : qos.length ≤ 22) :
    ∃ c' s' o, smStep c (.unitdataInd s.sess (actAccMsg sapi rp qos)) = .ok (c', [o], none) ∧
      (∃ t k, o = .snsmActInd (c.ms id).tlli s.nsapi sapi.toNat t k ∧
        (s.qos.length = 22 → s.qosLen ≤ 22 → k.length = s.qosLen)) ∧
      OneCtx c' id n s' ∧ (c'.ms id).tlli = (c.ms id).tlli ∧ s'.sess = s.sess ∧ s'.nsapi = s.nsapi ∧
      s'.st = .pending ∧ s'.pco = s.pco := by
  obtain ⟨s', e, e1, e2, e3, e4⟩ := ack_mandatory s sapi rp qos hq
  obtain ⟨h3, h4⟩ := one_put h s'
  have hsapi : s'.sapi = sapi.toNat := by
    have hl : (actAccMsg sapi rp qos).length = 5 + qos.length := by
      unfold actAccMsg; simp only [List.length_append, List.length_cons, List.length_nil]; omega
    have h2 : rd (actAccMsg sapi rp qos) 2 = .ok sapi.toNat := rfl
    unfold rxAckBody at e
    rw [if_neg (by omega)] at e
    unfold rdK at e
    rw [h2] at e
    dsimp only at e
    obtain ⟨v, h3⟩ : ∃ v, rd (actAccMsg sapi rp qos) 3 = .ok v := ⟨_, rd_of_lt (by omega)⟩
    rw [h3] at e
    dsimp only at e
    split at e
    · injection e with e e'; cases e'
    · split at e
      · injection e with e e'; cases e'
      · split at e
        · injection e with e e'; cases e'
        · obtain ⟨w, h4⟩ : ∃ w, rd (actAccMsg sapi rp qos) (4 + v) = .ok w := ⟨_, rd_of_lt (by omega)⟩
          rw [h4] at e
          dsimp only at e
          have hv : v = qos.length := by
            have hb : (UInt8.ofNat qos.length).toNat = qos.length := by
              rw [UInt8.toNat_ofNat']; omega
            have : rd (actAccMsg sapi rp qos) 3 = .ok (UInt8.ofNat qos.length).toNat := rfl
            rw [this, hb] at h3
            injection h3 with h3
            exact h3.symm
          rw [if_neg (by omega)] at e
          injection e with e
          subst e
          rfl
  refine ⟨_, s', snsmActOut (c.ms id) s', ?_, ⟨_, _, by unfold snsmActOut; rw [e2, hsapi], fun k1 k2 => ?_⟩, h3, h4, e1, e2,
    e3.trans hst, e4⟩
  rotate_left
  · have q1 := Keeps.qos_ack s (actAccMsg sapi rp qos) k1
    have q2 := (rxAckBody_keeps s (actAccMsg sapi rp qos)).qosLen
    rw [e] at q1 q2
    rw [List.length_take, q1, q2, k1]
    omega
  show withSess c s.sess _ = _
  rw [one_withSess h hn]
  have hl : ¬ (actAccMsg sapi rp qos).length < 2 := by
    unfold actAccMsg; simp only [List.length_append, List.length_cons, List.length_nil]; omega
  have h1 : rd (actAccMsg sapi rp qos) 1 = .ok 0x42 := rfl
  unfold smRx
  rw [if_neg hl, h1]
  dsimp only
  rw [if_pos rfl, e]
  dsimp only
  unfold smDispatch smFsm
  rw [e3.trans hst]
  rfl

theorem sm_ready {c : SmCtx} {id n : Nat} {s : Sme} (h : OneCtx c id n s) (hn : 5 ≤ n ∧ n ≤ 15) (hst : s.st = .pending)
    (hp : s.pco.length ≤ 253) (hns : s.nsapi = n) : ∃ c' o, smStep c (.snsmActRsp (c.ms id).tlli n) = .ok (c', [o], none) ∧
      (∃ pco addr p k, o = .actAcc id n pco addr p k) ∧ OneCtx c' id n (toActive s) := by
  obtain ⟨h3, -⟩ := one_put h (toActive s)
  refine ⟨_, .actAcc id s.nsapi s.pco s.addr s.radioPrio (s.qos.take s.qosLen), ?_, ⟨_, _, _, _, by rw [hns]⟩, h3⟩
  simp only [smStep]
  have hm : c.msByTlli (c.ms id).tlli = some id := by
    unfold SmCtx.msByTlli
    rw [h.order]
    simp
  have hv : nsapiValid n = true := by unfold nsapiValid; simpa using hn
  unfold withNsapi
  rw [hm]
  dsimp only
  rw [if_pos hv, h.slot n, if_pos rfl]
  dsimp only
  unfold smDispatch smFsm
  rw [hst]
  dsimp only
  unfold actCnf pcoToPrim
  rw [if_pos (by unfold pcoPrimMax; omega)]
  rfl

/-! ## The steps at GMM -/

/-- What the state machine keeps of a mobile station through the elements of ATTACH ACCEPT. -/
def attKeep (g : Gmme) : Nat × Bool × Bool × GmmSt × List Nat × Nat := (g.sess, g.explicitAtt, g.implicitAtt, g.st, g.imsi, g.tlli)

theorem applyFixed_keep (g : Gmme) (t : Nat) (f : Bool) (ra : Octets) : attKeep (applyFixed g t f ra) = attKeep g := by
  unfold applyFixed readyStop t3312Start
  (repeat' (first | rfl | split))

theorem readyNegotiated_keep (g : Gmme) : attKeep (readyNegotiated g) = attKeep g := by
  unfold readyNegotiated readyStop t3312Start
  (repeat' (first | rfl | split))

theorem rx_accept_keep {cfg : GmmCfg} {ok : GmmOut → Bool} {g : Gmme} {result timer prio : UInt8} {ra : Octets} {q : Nat}
    (hra : ra.length = 6) (hq : q < 0x100000000) :
    ∃ g2, gmmStep cfg ok g (.rx (acceptMsg result timer prio ra (some q))) = attAccEnd cfg ok (updatePtmsi g2 q, true) ∧
      attKeep g2 = attKeep g := by
  match ra, hra with
  | [a, b, c, d, e, f], _ =>
    have e1 : gmmStep cfg ok g (.rx (acceptMsg result timer prio [a, b, c, d, e, f] (some q))) =
      (attAccIes cfg (acceptMsg result timer prio [a, b, c, d, e, f] (some q))
        (applyFixed g timer.toNat (decide (result.toNat / 16 ≠ 0)) [a, b, c, d, e, f]) >>= attAccEnd cfg ok) := rfl
    rw [e1]
    have n2 := applyFixed_keep g timer.toNat (decide (result.toNat / 16 ≠ 0)) [a, b, c, d, e, f]
    generalize applyFixed g timer.toNat (decide (result.toNat / 16 ≠ 0)) [a, b, c, d, e, f] = g1 at *
    have e2 : attAccIes cfg (acceptMsg result timer prio [a, b, c, d, e, f] (some q)) g1 =
      (match (miDecodeTmsi (0xf4 :: be32 q)).map
          (updatePtmsi (readyNegotiated { { g1 with ptmsiSig := Gmm.reservedTmsi } with t3314s := cfg.t3314 })) with
      | some g3 => .ok (g3, true)
      | none => .ok (readyNegotiated { { g1 with ptmsiSig := Gmm.reservedTmsi } with t3314s := cfg.t3314 }, false)) := rfl
    rw [e2, mi_be32 hq]
    exact ⟨_, rfl, (readyNegotiated_keep _).trans n2⟩

/-- The attach that SM has asked for is accepted: the two new names, ATTACH COMPLETE, and the confirmation to
SM. -/
theorem gmm_accept {cfg : GmmCfg} {ok : GmmOut → Bool} {g : Gmme} {result timer prio : UInt8} {ra : Octets} {q : Nat}
    (hra : ra.length = 6) (hq : q < 0x100000000) (hok : ∀ o, smInOf o = none → ok o = true) (hst : g.st = .regInit)
    (hi : g.implicitAtt = true) (he : g.explicitAtt = false) :
    ∃ g' a b sig ra', gmmStep cfg ok g (.rx (acceptMsg result timer prio ra (some q))) =
        .ok ⟨g', [a, b, .llUnitdata (localTlli q) attachCompl, .estAcc g.sess q sig (localTlli q) ra'], none⟩ ∧
      smInOf a = none ∧ smInOf b = none ∧ g'.tlli = localTlli q ∧ g'.sess = g.sess ∧ g'.imsi = g.imsi ∧ g'.st = .reg ∧
      (∀ u d, a ≠ .llUnitdata u d) ∧ (∀ u d, b ≠ .llUnitdata u d) ∧
      (∃ gea kc, a = .llgmmAssign g.tlli (localTlli q) gea kc) ∧ llcOpOf b = none := by
  obtain ⟨g2, e, k⟩ := rx_accept_keep (cfg := cfg) (ok := ok) (g := g) (result := result) (timer := timer) (prio := prio) hra hq
  unfold attKeep at k
  simp only [Prod.mk.injEq] at k
  obtain ⟨k1, k2, k3, k4, k5, k6⟩ := k
  have m1 : (updatePtmsi g2 q).sess = g.sess := k1
  have m2 : (updatePtmsi g2 q).tlli = localTlli q := rfl
  have m3 : (updatePtmsi g2 q).ptmsi = q := rfl
  have m4 : (updatePtmsi g2 q).st = .regInit := k4.trans hst
  have m5 : (updatePtmsi g2 q).imsi = g.imsi := k5
  have m6 : (updatePtmsi g2 q).explicitAtt = false := k2.trans he
  have m7 : (updatePtmsi g2 q).implicitAtt = true := k3.trans hi
  have m8 : (updatePtmsi g2 q).oldTlli = g.tlli := k6
  rw [e]
  generalize updatePtmsi g2 q = g3 at *
  refine ⟨toReg g3, assignOut g3, rrAssignOut g3, g3.ptmsiSig, g3.ra, ?_, rfl, rfl, m2, m1, m5, rfl,
    fun u d h => (by cases h), fun u d h => (by cases h), ⟨g3.gea, g3.kc, by unfold assignOut; rw [m8, m2]⟩, rfl⟩
  have hsub : submit ok [assignOut g3, rrAssignOut g3, .llUnitdata g3.tlli attachCompl] =
      ([assignOut g3, rrAssignOut g3, .llUnitdata g3.tlli attachCompl], true) := by
    apply submit_ok
    intro o ho
    simp only [List.mem_cons, List.not_mem_nil, or_false] at ho
    rcases ho with rfl | rfl | rfl <;> exact hok _ rfl
  unfold attAccEnd
  rw [if_pos rfl]
  unfold submitThen
  dsimp only
  rw [hsub, if_pos rfl]
  unfold dispatch gmmFsm
  rw [m4]
  dsimp only
  unfold attachDone
  rw [m6, m7]
  have h1 : (submit ok ((if false = true then [attachAccOut g3] else []) ++ (if true = true then [estAccOut g3] else []))).1 =
      [estAccOut g3] := by
    simp only [Bool.false_eq_true, if_false, if_true, List.nil_append]
    unfold submit
    split
    · rfl
    · rfl
  rw [h1]
  show Res.ok (GmmStep.mk (toReg g3) [_, _, _, GmmOut.estAcc g3.sess g3.ptmsi g3.ptmsiSig g3.tlli g3.ra] none) = _
  rw [m1, m2, m3]

/-- The attach SM asks for. -/
theorem gmm_establish {cfg : GmmCfg} {ok : GmmOut → Bool} {ptmsi rnd sess sig : Nat} {imsi : List Nat} {who : Ident}
    (hp : ptmsi < 0xffffffff) (hok : ∀ o, smInOf o = none → ok o = true) :
    ∃ g' b, gmmStep cfg ok (gmmeAlloc true ptmsi imsi rnd) (.establishReq sess (estPrm who sig false)) =
        .ok ⟨g', [.llUnitdata (foreignTlli ptmsi) b], none⟩ ∧
      g'.tlli = foreignTlli ptmsi ∧ g'.sess = sess ∧ g'.imsi = imsi ∧ g'.st = .regInit ∧ g'.implicitAtt = true ∧
      g'.explicitAtt = false ∧ (∃ l, b = 0x08 :: l) ∧ (who.ra.length = 6 → b.length ≤ 140) := by
  have hr : ptmsi ≠ Gmm.reservedTmsi := by unfold Gmm.reservedTmsi; omega
  have ht : (gmmeAlloc true ptmsi imsi rnd).tlli = foreignTlli ptmsi := if_neg hr
  show ∃ g' b, Res.ok (establishReqAct cfg ok (gmmeAlloc true ptmsi imsi rnd) sess (estPrm who sig false)) = _ ∧ _
  unfold establishReqAct
  rw [if_neg (show ¬ (gmmeAlloc true ptmsi imsi rnd).st = .reg by unfold gmmeAlloc; simp)]
  unfold requestAttach dispatch
  simp only [gmmFsm, startAttach, txAttReq, buildAttachReq, estPrm, storeIdentities, ht, Bool.false_eq_true, if_false]
  rw [if_pos (hok _ rfl)]
  refine ⟨_, _, rfl, rfl, rfl, rfl, rfl, rfl, rfl, ⟨_, rfl⟩, fun h => ?_⟩
  exact attachReq_length (attType := 1) (ptmsi := ptmsi) (sig := sig) (t3314 := cfg.t3314) (imsi := imsi) h
    (by simp [buildAttachReq, gmmeAlloc])

seal localTlli foreignTlli

theorem sgFold_out {f : SmGmm → List Nat × GmmOut → Res (SmGmm × List SgOut)} {s : SmGmm} {x : List Nat × GmmOut}
    {l : List (List Nat × GmmOut)} (h : f s x = .ok (s, [.gmm x.1 x.2])) :
    sgFold f s (x :: l) = (sgFold f s l >>= fun t => .ok (t.1, .gmm x.1 x.2 :: t.2)) := by
  show (f s x >>= fun r => sgFold f r.1 l >>= fun t => Res.ok (t.1, r.2 ++ t.2)) = _
  rw [h, Res.bind_ok]
  rfl

theorem sgUp_none {cfg : GmmCfg} {ok : GmmOut → Bool} {s : SmGmm} {x : List Nat × GmmOut} (h : smInOf x.2 = none) :
    sgUp cfg ok s x = .ok (s, [.gmm x.1 x.2]) := by
  unfold sgUp
  rw [h]

theorem sgOk_yes (c : SmCtx) : ∀ o, smInOf o = none → sgOk c yes o = true := by
  intro o ho
  unfold sgOk
  rw [ho]
  rfl

/-- SM and GMM after the user has asked: the mobile station is being attached. -/
theorem sg_start (cfg : GmmCfg) (who : Nat → Ident) {r : ActReq} (hr : ActReqOk r) (draws : List Nat) :
    ∃ c s g b, sgStep cfg who yes sg0 (.actReq r draws) =
        .ok (⟨c, ⟨true, [g]⟩⟩, [.gmm (who r.msId).imsi (.llUnitdata (foreignTlli r.ptmsi) b)]) ∧
      OneCtx c r.msId r.nsapi s ∧ s.sess = 0 ∧ s.nsapi = r.nsapi ∧ s.st = .pending ∧ s.pco = r.pco ∧ s.ti = 0 ∧
      g.tlli = foreignTlli r.ptmsi ∧ g.sess = 0 ∧ g.imsi = (who r.msId).imsi ∧ g.st = .regInit ∧
      g.implicitAtt = true ∧ g.explicitAtt = false ∧ (∃ l, b = 0x08 :: l) ∧
      s.qosLen = r.qos.length ∧ s.qos.length = 22 ∧ s.apn = r.apn ∧ s.addr = r.addr ∧
      ((who r.msId).ra.length = 6 → b.length ≤ 140) := by
  obtain ⟨c, s, e, h1, h2, h3, h4, h5, h6, h7, h8, h9, h10⟩ := sm_start hr
  obtain ⟨g, b, eg, g1, g2, g3, g4, g5, g6, g7, g8⟩ := gmm_establish (cfg := cfg) (ok := sgOk c yes) (ptmsi := r.ptmsi)
    (rnd := randTlli [] draws) (sess := 0) (sig := r.ptmsiSig) (imsi := (who r.msId).imsi) (who := who r.msId)
    hr.ptmsi (sgOk_yes c)
  refine ⟨c, s, g, b, ?_, h1, h2, h3, h4, h5, h6, g1, g2, g3, g4, g5, g6, g7, h7, h8, h9, h10, g8⟩
  have hfc : findOrCreate ⟨true, []⟩ r.ptmsi (who r.msId).imsi draws =
      (⟨true, [gmmeAlloc true r.ptmsi (who r.msId).imsi (randTlli [] draws)]⟩, 0) := by
    unfold findOrCreate findPtmsi findImsi
    simp
  have hl : layerStep cfg (sgOk c yes) ⟨true, []⟩ (.establishReq 0 r.ptmsi (who r.msId).imsi draws
      (estPrm (who r.msId) r.ptmsiSig false)) =
      .ok ⟨⟨true, [g]⟩, [⟨(who r.msId).imsi, ⟨.establishReq 0 (estPrm (who r.msId) r.ptmsiSig false),
        [.llUnitdata (foreignTlli r.ptmsi) b], none⟩⟩], none⟩ := by
    unfold layerStep
    dsimp only
    rw [hfc]
    unfold stepAt
    dsimp only [List.getElem?_cons_zero]
    rw [eg]
    rfl
  show (smStep smInit (.actReq r) >>= fun x => sgFold (sgDown cfg yes (who r.msId) draws) ⟨x.1, ⟨true, []⟩⟩ x.2.1) = _
  rw [e, Res.bind_ok]
  show (sgDown cfg yes (who r.msId) draws ⟨c, ⟨true, []⟩⟩ (.establishReq 0 r.ptmsi r.ptmsiSig false) >>= fun x =>
    sgFold (sgDown cfg yes (who r.msId) draws) x.1 [] >>= fun t => Res.ok (t.1, x.2 ++ t.2)) = _
  have hd : sgDown cfg yes (who r.msId) draws ⟨c, ⟨true, []⟩⟩ (.establishReq 0 r.ptmsi r.ptmsiSig false) =
      .ok (⟨c, ⟨true, [g]⟩⟩, [.gmm (who r.msId).imsi (.llUnitdata (foreignTlli r.ptmsi) b)]) := by
    unfold sgDown
    dsimp only
    rw [hl, Res.bind_ok]
    show sgFold (sgUp cfg yes) ⟨c, ⟨true, [g]⟩⟩ [((who r.msId).imsi, .llUnitdata (foreignTlli r.ptmsi) b)] = _
    rw [sgFold_out (sgUp_none rfl)]
    rfl
  rw [hd, Res.bind_ok]
  rfl

/-- The network accepts the mobile station: SM hands its request to GMM under the identifier of the mobile
station, and GMM looks for a session of this number. -/
theorem sg_accept (cfg : GmmCfg) (who : Nat → Ident) {c : SmCtx} {id n : Nat} {s : Sme} {g : Gmme} {t : Nat}
    (h : OneCtx c id n s) (hn : n < 16) (hs : s.st = .pending) (ht : g.tlli = t) (hg : g.sess = s.sess)
    (hst : g.st = .regInit) (hi : g.implicitAtt = true) (he : g.explicitAtt = false)
    (result timer prio : UInt8) {ra : Octets} (hra : ra.length = 6) {q : Nat} (hq : q < 0x100000000) :
    ∃ c' g' a b, sgStep cfg who yes ⟨c, ⟨true, [g]⟩⟩ (.gmm (.rx t (acceptMsg result timer prio ra (some q)))) =
        .ok (⟨c', ⟨true, [g']⟩⟩, [.gmm g.imsi a, .gmm g.imsi b, .gmm g.imsi (.llUnitdata (localTlli q) attachCompl)] ++
          (if s.sess = id then [.gmm g.imsi (.llUnitdata (localTlli q) (buildActReq s))] else [])) ∧
      smInOf a = none ∧ smInOf b = none ∧ (∀ u d, a ≠ .llUnitdata u d) ∧ (∀ u d, b ≠ .llUnitdata u d) ∧
      OneCtx c' id n s ∧ (c'.ms id).tlli = localTlli q ∧
      g'.tlli = localTlli q ∧ g'.sess = g.sess ∧ g'.imsi = g.imsi ∧ g'.st = .reg ∧
      (∃ gea kc, a = .llgmmAssign g.tlli (localTlli q) gea kc) ∧ llcOpOf b = none := by
  obtain ⟨g', a, b, sig, ra', eg, a1, a2, g1, g2, g3, g4, a3, a4, a5, a6⟩ := gmm_accept (cfg := cfg) (ok := sgOk c yes) (g := g)
    (result := result) (timer := timer) (prio := prio) hra hq (sgOk_yes c) hst hi he
  obtain ⟨c', e, h1, h2⟩ := sm_estAcc h hn hs q sig (localTlli q)
  refine ⟨c', g', a, b, ?_, a1, a2, a3, a4, h1, h2, g1, g2, g3, g4, a5, a6⟩
  have hl : layerStep cfg (sgOk c yes) ⟨true, [g]⟩ (.rx t (acceptMsg result timer prio ra (some q))) =
      .ok ⟨⟨true, [g']⟩, [⟨g.imsi, ⟨.rx (acceptMsg result timer prio ra (some q)),
        [a, b, .llUnitdata (localTlli q) attachCompl, .estAcc g.sess q sig (localTlli q) ra'], none⟩⟩], none⟩ := by
    have hf : findGmmTlli [g] t = some 0 := by unfold findGmmTlli; simp [ht]
    simp only [layerStep]
    rw [hf]
    unfold stepFound stepAt
    dsimp only [List.getElem?_cons_zero]
    rw [eg]
    rfl
  show (layerStep cfg (sgOk c yes) ⟨true, [g]⟩ (.rx t (acceptMsg result timer prio ra (some q))) >>= fun r =>
    sgFold (sgUp cfg yes) ⟨c, r.layer⟩ (sgSeen r)) = _
  rw [hl, Res.bind_ok]
  show sgFold (sgUp cfg yes) ⟨c, ⟨true, [g']⟩⟩ [(g.imsi, a), (g.imsi, b), (g.imsi, .llUnitdata (localTlli q) attachCompl),
    (g.imsi, .estAcc g.sess q sig (localTlli q) ra')] = _
  rw [sgFold_out (sgUp_none a1), sgFold_out (sgUp_none a2), sgFold_out (sgUp_none rfl)]
  have hu : sgUp cfg yes ⟨c, ⟨true, [g']⟩⟩ (g.imsi, .estAcc g.sess q sig (localTlli q) ra') =
      .ok (⟨c', ⟨true, [g']⟩⟩, if s.sess = id then [.gmm g.imsi (.llUnitdata (localTlli q) (buildActReq s))] else []) := by
    show (smStep c (.estAcc g.sess q sig (localTlli q)) >>= fun r => sgFold (sgData cfg yes) ⟨r.1, ⟨true, [g']⟩⟩ r.2.1) = _
    rw [hg, e, Res.bind_ok]
    show (sgData cfg yes ⟨c', ⟨true, [g']⟩⟩ (.unitdataReq id (buildActReq s)) >>= fun r =>
      sgFold (sgData cfg yes) r.1 [] >>= fun t => Res.ok (t.1, r.2 ++ t.2)) = _
    have hd : sgData cfg yes ⟨c', ⟨true, [g']⟩⟩ (.unitdataReq id (buildActReq s)) =
        .ok (⟨c', ⟨true, [g']⟩⟩, if s.sess = id then [.gmm g.imsi (.llUnitdata (localTlli q) (buildActReq s))] else []) := by
      unfold sgData
      simp only [layerStep]
      have hf : findSess [g'] id = if s.sess = id then some 0 else none := by
        unfold findSess
        rw [List.findIdx?_cons, g2, hg]
        split <;> simp_all
      rw [hf]
      split
      · show Res.ok (SmGmm.mk c' ⟨true, [g']⟩, [SgOut.gmm g'.imsi (.llUnitdata g'.tlli (buildActReq s))]) = _
        rw [g3, g1]
      · rfl
    rw [hd, Res.bind_ok]
    show Res.ok (_, _ ++ []) = _
    rw [List.append_nil]
  have hf : sgFold (sgUp cfg yes) ⟨c, ⟨true, [g']⟩⟩ [(g.imsi, .estAcc g.sess q sig (localTlli q) ra')] =
      .ok (⟨c', ⟨true, [g']⟩⟩, if s.sess = id then [.gmm g.imsi (.llUnitdata (localTlli q) (buildActReq s))] else []) := by
    show (sgUp cfg yes ⟨c, ⟨true, [g']⟩⟩ (g.imsi, .estAcc g.sess q sig (localTlli q) ra') >>= fun r =>
      sgFold (sgUp cfg yes) r.1 [] >>= fun t => Res.ok (t.1, r.2 ++ t.2)) = _
    rw [hu, Res.bind_ok]
    show Res.ok (_, _ ++ []) = _
    rw [List.append_nil]
  rw [hf]
  rfl

/-- The network accepts the PDP context: SNDCP is told. -/
theorem sg_activated (cfg : GmmCfg) (who : Nat → Ident) {c : SmCtx} {id n : Nat} {s : Sme} {g : Gmme} {t : Nat}
    (h : OneCtx c id n s) (hn : n < 16) (hs : s.st = .pending) (ht : g.tlli = t) (hg : g.sess = s.sess)
    (sapi rp : UInt8) {qos : Octets} (hq : qos.length ≤ 22) :
    ∃ c' s' o, sgStep cfg who yes ⟨c, ⟨true, [g]⟩⟩ (.gmm (.rx t (actAccMsg sapi rp qos))) =
        .ok (⟨c', ⟨true, [g]⟩⟩, [.sm o]) ∧ (∃ u k, o = .snsmActInd (c.ms id).tlli s.nsapi sapi.toNat u k ∧
        (s.qos.length = 22 → s.qosLen ≤ 22 → k.length = s.qosLen)) ∧
      OneCtx c' id n s' ∧ (c'.ms id).tlli = (c.ms id).tlli ∧ s'.sess = s.sess ∧ s'.nsapi = s.nsapi ∧
      s'.st = .pending ∧ s'.pco = s.pco := by
  obtain ⟨c', s', o, e, ⟨u, k, rfl, hk⟩, h1, h2, h3, h4, h5, h6⟩ := sm_accept h hn hs sapi rp qos hq
  refine ⟨c', s', _, ?_, ⟨u, k, rfl, hk⟩, h1, h2, h3, h4, h5, h6⟩
  have hl : ∃ rc, layerStep cfg (sgOk c yes) ⟨true, [g]⟩ (.rx t (actAccMsg sapi rp qos)) =
      .ok ⟨⟨true, [g]⟩, [⟨g.imsi, ⟨.rx (actAccMsg sapi rp qos), [.smUnitdataInd g.sess (actAccMsg sapi rp qos)], rc⟩⟩], rc⟩ := by
    have hf : findGmmTlli [g] t = some 0 := by unfold findGmmTlli; simp [ht]
    simp only [layerStep]
    rw [hf]
    unfold stepFound stepAt
    dsimp only [List.getElem?_cons_zero]
    have hg' : gmmStep cfg (sgOk c yes) g (.rx (actAccMsg sapi rp qos)) =
        .ok (submitOne (sgOk c yes) g [] (.smUnitdataInd g.sess (actAccMsg sapi rp qos))) := rfl
    rw [hg']
    exact ⟨_, rfl⟩
  obtain ⟨rc, hl⟩ := hl
  show (layerStep cfg (sgOk c yes) ⟨true, [g]⟩ (.rx t (actAccMsg sapi rp qos)) >>= fun r =>
    sgFold (sgUp cfg yes) ⟨c, r.layer⟩ (sgSeen r)) = _
  rw [hl, Res.bind_ok]
  show ((smStep c (.unitdataInd g.sess (actAccMsg sapi rp qos)) >>= fun r => sgFold (sgData cfg yes) ⟨r.1, ⟨true, [g]⟩⟩ r.2.1) >>=
    fun r => sgFold (sgUp cfg yes) r.1 [] >>= fun t => Res.ok (t.1, r.2 ++ t.2)) = _
  rw [hg, e, Res.bind_ok]
  rfl

/-- SNDCP is ready: the user is told. -/
theorem sg_ready (cfg : GmmCfg) (who : Nat → Ident) {c : SmCtx} {id n : Nat} {s : Sme} {L : GmmLayer} {t : Nat}
    (h : OneCtx c id n s) (hn : 5 ≤ n ∧ n ≤ 15) (hs : s.st = .pending) (hp : s.pco.length ≤ 253) (hns : s.nsapi = n)
    (ht : (c.ms id).tlli = t) : ∃ c' o, sgStep cfg who yes ⟨c, L⟩ (.snsmActRsp t n) = .ok (⟨c', L⟩, [.sm o]) ∧
      (∃ pco addr p k, o = .actAcc id n pco addr p k) ∧ OneCtx c' id n (toActive s) := by
  subst ht
  obtain ⟨c', o, e, ⟨pco, addr, p, k, rfl⟩, h1⟩ := sm_ready h hn hs hp hns
  refine ⟨c', _, ?_, ⟨pco, addr, p, k, rfl⟩, h1⟩
  show (smStep c (.snsmActRsp (c.ms id).tlli n) >>= fun r => sgFold (sgDown cfg yes (who 0) []) ⟨r.1, L⟩ r.2.1) = _
  rw [e, Res.bind_ok]
  rfl

theorem sgRun_cons {cfg : GmmCfg} {who : Nat → Ident} {ok : GmmOut → Bool} {s s' : SmGmm} {e : SgEv} {l : List SgEv}
    {o : List SgOut} (h : sgStep cfg who ok s e = .ok (s', o)) :
    sgRun cfg who ok s (e :: l) = (sgRun cfg who ok s' l >>= fun t => .ok (t.1, o ++ t.2)) := by
  show (sgStep cfg who ok s e >>= fun r => sgRun cfg who ok r.1 l >>= fun t => Res.ok (t.1, r.2 ++ t.2)) = _
  rw [h, Res.bind_ok]

theorem isActReq_build {s : Sme} (h : s.ti = 0) : IsActReq s.nsapi (buildActReq s) := by
  refine ⟨UInt8.ofNat (0x0a + 16 * (s.ti ^^^ 8)), _, rfl, ?_⟩
  rw [h]
  decide

/-- The whole history: the mobile station is attached, the PDP context is active, the user is told, and the request
for it has been sent exactly if the mobile station's number is that of the session. -/
theorem activation_run (cfg : GmmCfg) (who : Nat → Ident) {r : ActReq} (hr : ActReqOk r) (draws : List Nat)
    (result timer prio : UInt8) {ra : Octets} (hra : ra.length = 6) {q : Nat} (hq : q < 0xffffffff) (sapi rp : UInt8)
    {qos : Octets} (hqos : qos.length ≤ 22) :
    ∃ c s g b0 a b o1 b1 pco addr p k, sgRun cfg who yes sg0 (activation r draws result timer prio ra q sapi rp qos) =
      .ok (⟨c, ⟨true, [g]⟩⟩, [.gmm (who r.msId).imsi (.llUnitdata (foreignTlli r.ptmsi) b0), .gmm (who r.msId).imsi a,
          .gmm (who r.msId).imsi b, .gmm (who r.msId).imsi (.llUnitdata (localTlli q) attachCompl)] ++
        ((if r.msId = 0 then [.gmm (who r.msId).imsi (.llUnitdata (localTlli q) b1)] else []) ++
        [.sm o1, .sm (.actAcc r.msId r.nsapi pco addr p k)])) ∧
      IsActReq r.nsapi b1 ∧ (∀ u d, a ≠ .llUnitdata u d) ∧ (∀ u d, b ≠ .llUnitdata u d) ∧
      OneCtx c r.msId r.nsapi s ∧ s.st = .active ∧ s.sess = 0 ∧ g.sess = 0 ∧ g.st = .reg ∧ g.tlli = localTlli q ∧
      g.imsi = (who r.msId).imsi ∧ ∃ l, b0 = 0x08 :: l := by
  obtain ⟨c1, s1, g1, b0, e1, h1, k1, k2, k3, k4, k5, t1, t2, t3, t4, t5, t6, t7, -⟩ := sg_start cfg who hr draws
  obtain ⟨c2, g2, a, b, e2, x1, x2, x3, x4, h2, l1, l2, l3, l4, l5, -⟩ := sg_accept cfg who h1 (by have := hr.nsapi; omega) k3 t1
    (t2.trans k1.symm) t4 t5 t6 result timer prio hra (show q < 0x100000000 by omega)
  obtain ⟨c3, s3, o1, e3, -, h3, m1, m2, m3, m4, m5⟩ := sg_activated cfg who h2 (by have := hr.nsapi; omega) k3 l2
    ((l3.trans t2).trans k1.symm) sapi rp hqos
  obtain ⟨c4, o2, e4, ⟨pco, addr, p, k, rfl⟩, h4⟩ := sg_ready cfg who (L := ⟨true, [g2]⟩) h3 hr.nsapi m4
    (by rw [m5, k4]; exact hr.pco) (m3.trans k2) (m1.trans l1)
  refine ⟨c4, _, g2, b0, a, b, o1, buildActReq s1, pco, addr, p, k, ?_, k2 ▸ isActReq_build k5, x3, x4, h4, rfl, ?_,
    l3.trans t2, l5, l2, l4.trans t3, t7⟩
  · unfold activation
    rw [sgRun_cons e1, sgRun_cons e2, sgRun_cons e3, sgRun_cons e4]
    simp only [sgRun, Res.bind_ok, t3, k1]
    by_cases hid : r.msId = 0
    · rw [if_pos hid, if_pos hid.symm]; rfl
    · rw [if_neg hid, if_neg (Ne.symm hid)]; rfl
  · exact m2.trans k1

/-- C163 for the mobile station whose number is that of the session. -/
theorem c163_partial (cfg : GmmCfg) (who : Nat → Ident) (r : ActReq) (draws : List Nat) (result timer prio : UInt8)
    (ra : Octets) (q : Nat) (sapi rp : UInt8) (qos : Octets) (hr : ActReqOk r) (hra : ra.length = 6) (hq : q < 0xffffffff)
    (hqos : qos.length ≤ 22) (hid : r.msId = 0) :
    ∃ s outs, sgRun cfg who yes sg0 (activation r draws result timer prio ra q sapi rp qos) = .ok (s, outs) ∧
      (∃ b, SgOut.gmm (who r.msId).imsi (.llUnitdata (localTlli q) b) ∈ outs ∧ IsActReq r.nsapi b) ∧
      (∃ pco addr p k, SgOut.sm (.actAcc r.msId r.nsapi pco addr p k) ∈ outs) ∧
      ∃ x, (s.sm.ms r.msId).pdp r.nsapi = some x ∧ x.st = .active := by
  obtain ⟨c, s, g, b0, a, b, o1, b1, pco, addr, p, k, e, h1, -, -, h2, h3, -⟩ :=
    activation_run cfg who hr draws result timer prio hra hq sapi rp hqos
  refine ⟨_, _, e, ⟨b1, ?_, h1⟩, ⟨pco, addr, p, k, ?_⟩, s, ?_, h3⟩
  · rw [if_pos hid]; simp
  · simp
  · show (c.ms r.msId).pdp r.nsapi = _
    rw [h2.slot, if_pos rfl]

/-- The request of any other mobile station that is the first to ask never leaves the device, though the network
accepts the mobile station. -/
theorem c163_never (cfg : GmmCfg) (who : Nat → Ident) (r : ActReq) (draws : List Nat) (result timer prio : UInt8)
    (ra : Octets) (q : Nat) (sapi rp : UInt8) (qos : Octets) (hr : ActReqOk r) (hra : ra.length = 6) (hq : q < 0xffffffff)
    (hqos : qos.length ≤ 22) (hid : r.msId ≠ 0) :
    ∃ s outs, sgRun cfg who yes sg0 (activation r draws result timer prio ra q sapi rp qos) = .ok (s, outs) ∧
      ∀ i t b, SgOut.gmm i (.llUnitdata t b) ∈ outs → ∀ n, ¬ IsActReq n b := by
  obtain ⟨c, s, g, b0, a, b, o1, b1, pco, addr, p, k, e, -, h5, h6, -, -, -, -, -, -, -, l0, h7⟩ :=
    activation_run cfg who hr draws result timer prio hra hq sapi rp hqos
  refine ⟨_, _, e, fun i t d hm n hd => ?_⟩
  obtain ⟨x, l, rfl, hx⟩ := hd
  rw [if_neg hid] at hm
  simp only [List.nil_append, List.cons_append, List.mem_cons, List.not_mem_nil, or_false, SgOut.gmm.injEq,
    GmmOut.llUnitdata.injEq, reduceCtorEq] at hm
  rcases hm with ⟨-, -, h⟩ | ⟨-, h⟩ | ⟨-, h⟩ | ⟨-, -, h⟩
  · rw [h7] at h
    injection h with h
    rw [h] at hx
    exact absurd hx (by decide)
  · exact absurd h.symm (h5 _ _)
  · exact absurd h.symm (h6 _ _)
  · unfold attachCompl at h
    injection h with h
    rw [h] at hx
    exact absurd hx (by decide)

/-! ## Examples -/

/-- A request for a PDP context. -/
def sgReq (id n ptmsi : Nat) : ActReq := ⟨id, n, 3, ⟨0x21, none, none⟩, [0, 0, 0], [], [], ptmsi, 1⟩

def sgWho (id : Nat) : Ident := ⟨[2, 6, 2, 0, 1, id], [], [], [0x62, 0xf2, 0x20, 0, 1, 0]⟩

/-- The hypotheses are met. -/
example : ActReqOk (sgReq 0 5 0xc0000001) := ⟨by decide, by decide, by decide, by decide⟩

/-- **C163 is violated**: the request of mobile station 1 never leaves. -/
theorem c163_violated : ¬ C163Statement := by
  intro h
  have hr : ActReqOk (sgReq 1 5 0xc0000001) := ⟨by decide, by decide, by decide, by decide⟩
  obtain ⟨s, o, e, ⟨b, h1, h2⟩, -⟩ := h defaultCfg sgWho (sgReq 1 5 0xc0000001) [] 1 0x4a 4 [0x62, 0xf2, 0x20, 0, 1, 0]
    0xc0000005 3 4 [0, 0, 0] hr rfl (by decide) (by decide) (by decide)
  obtain ⟨s', o', e', h3⟩ := c163_never defaultCfg sgWho (sgReq 1 5 0xc0000001) [] 1 0x4a 4
    [0x62, 0xf2, 0x20, 0, 1, 0] 0xc0000005 3 4 [0, 0, 0] hr rfl (by decide) (by decide) (by decide)
  rw [e] at e'
  injection e' with e'
  injection e' with _ e'
  subst e'
  exact h3 _ _ _ h1 _ h2

end Verif.Props
