import Verif.Props.SmEntity
/-!
# C79–C84: what the network's answers do to a PDP context
-/
namespace Verif.Props
open Verif Verif.Sm Verif.Gsm

/-! ## C79: the user is told what the network granted -/

/-- The mandatory part of an ACTIVATE PDP CONTEXT ACCEPT as TS 24.008 9.5.2 lays it out: LLC SAPI in the low
half of octet 3, QoS as length and value, radio priority in the low three bits of the next octet. -/
structure Granted where
  sapi : Nat
  qos : Octets
  radioPrio : Nat

/-- Read these fields; `none` if the message ends before. -/
def readGranted (b : Octets) : Option Granted :=
  match b with
  | _ :: _ :: sapi :: rest =>
    match Spec.Sm.takeLv rest with
    | some (q, rp :: _) => some ⟨sapi.toNat % 16, q, rp.toNat % 8⟩
    | _ => none
  | _ => none

/-- C79: once an ACCEPT has been understood, the SAPI, QoS and radio priority handed to SNDCP and reported
to the user are those of the message. -/
def C79Statement : Prop :=
  ∀ (s s' : Sme) (b : Octets), s.qos.length = qosMax → s.qosLen ≤ qosMax → rxAckBody s b = (s', .ok ()) →
    ∃ g, readGranted b = some g ∧
      (∀ m, snsmActOut m s' = .snsmActInd m.tlli s'.nsapi g.sapi g.radioPrio g.qos) ∧
      ∀ id x, actCnf id s' 0 = .ok x → x = .actAcc id s'.nsapi s'.pco s'.addr g.radioPrio g.qos

/-- The user asked for three octets of QoS, the network grants with eleven. -/
theorem c79_violated : ¬ C79Statement := by
  intro h
  obtain ⟨g, h1, h2, _⟩ := h
    ⟨0, 5, 3, ⟨0x21, none, none⟩, 0, List.replicate 22 0, 3, [], [], 0, .pending, .t3380, 0⟩
    ⟨0, 5, 3, ⟨0x21, none, none⟩, 4, [1, 2, 3, 4, 5, 6, 7, 8, 9, 10, 11] ++ List.replicate 11 0, 3, [], [], 0,
      .pending, .t3380, 0⟩
    [0x8a, 0x42, 3, 11, 1, 2, 3, 4, 5, 6, 7, 8, 9, 10, 11, 4] (by decide) (by decide) (by decide +kernel)
  have hg : readGranted [0x8a, 0x42, 3, 11, 1, 2, 3, 4, 5, 6, 7, 8, 9, 10, 11, 4] =
      some ⟨3, [1, 2, 3, 4, 5, 6, 7, 8, 9, 10, 11], 4⟩ := by rfl
  rw [hg] at h1
  cases h1
  have := h2 freshMs
  simp [snsmActOut] at this

theorem takeAddr_same {s s' : Sme} {b : Octets} {ies : List Ie} {r : Res Unit} (h : takeAddr s b ies = (s', r)) :
    s'.sapi = s.sapi ∧ s'.qos = s.qos ∧ s'.radioPrio = s.radioPrio ∧ s'.pco = s.pco := by
  unfold takeAddr at h
  split at h
  · cases h; exact ⟨rfl, rfl, rfl, rfl⟩
  · split at h <;> (cases h; exact ⟨rfl, rfl, rfl, rfl⟩)

theorem takePco_same {s s' : Sme} {b : Octets} {ies : List Ie} {r : Res Unit} (h : takePco s b ies = (s', r)) :
    s'.sapi = s.sapi ∧ s'.qos = s.qos ∧ s'.radioPrio = s.radioPrio ∧ s'.addr = s.addr := by
  unfold takePco at h
  split at h
  · cases h; exact ⟨rfl, rfl, rfl, rfl⟩
  · split at h
    · cases h; exact ⟨rfl, rfl, rfl, rfl⟩
    · split at h <;> (cases h; exact ⟨rfl, rfl, rfl, rfl⟩)

theorem ackTlvs_same {s s' : Sme} {b : Octets} {pos : Nat} {r : Res Unit} (h : ackTlvs s b pos = (s', r)) :
    s'.sapi = s.sapi ∧ s'.qos = s.qos ∧ s'.radioPrio = s.radioPrio := by
  unfold ackTlvs at h
  split at h
  · cases h; exact ⟨rfl, rfl, rfl⟩
  · cases h; exact ⟨rfl, rfl, rfl⟩
  · split at h
    · rename_i s1 _ h1
      obtain ⟨a1, a2, a3, _⟩ := takeAddr_same h1
      obtain ⟨b1, b2, b3, _⟩ := takePco_same h
      exact ⟨b1.trans a1, b2.trans a2, b3.trans a3⟩
    · obtain ⟨a1, a2, a3, _⟩ := takeAddr_same h
      exact ⟨a1, a2, a3⟩

/-- What an understood ACCEPT leaves in the context. -/
theorem ack_fields {s s' : Sme} {b : Octets} (h : rxAckBody s b = (s', .ok ())) :
    ∃ o0 o1 sapi ql q rp rest, b = o0 :: o1 :: sapi :: ql :: (q ++ rp :: rest) ∧ q.length = ql.toNat ∧
      ql.toNat ≤ qosMax ∧ s'.sapi = sapi.toNat ∧ s'.qos = q ++ s.qos.drop ql.toNat ∧ s'.radioPrio = rp.toNat := by
  unfold rxAckBody at h
  split at h
  · cases h
  rename_i h4
  match b, h4, h with
  | o0 :: o1 :: sapi :: ql :: tl, h4, h =>
    have e2 : rd (o0 :: o1 :: sapi :: ql :: tl) 2 = .ok sapi.toNat := rfl
    have e3 : rd (o0 :: o1 :: sapi :: ql :: tl) 3 = .ok ql.toNat := rfl
    unfold rdK at h
    rw [e2] at h
    dsimp only at h
    rw [e3] at h
    dsimp only at h
    split at h
    · cases h
    rename_i h5
    split at h
    · cases h
    rename_i h6
    split at h
    · cases h
    rename_i h7
    have hl : 4 + ql.toNat < (o0 :: o1 :: sapi :: ql :: tl).length := by omega
    rw [rd_of_lt hl] at h
    dsimp only at h
    have htl : ql.toNat < tl.length := by simp only [List.length_cons] at hl; omega
    have hget : (o0 :: o1 :: sapi :: ql :: tl)[4 + ql.toNat]'hl = tl[ql.toNat]'htl := by
      have : 4 + ql.toNat = ql.toNat + 1 + 1 + 1 + 1 := by omega
      simp [this]
    have hdrop : List.drop 4 (o0 :: o1 :: sapi :: ql :: tl) = tl := rfl
    rw [hget, hdrop] at h
    refine ⟨o0, o1, sapi, ql, tl.take ql.toNat, tl[ql.toNat], tl.drop (ql.toNat + 1), ?_, ?_, by omega, ?_⟩
    · rw [← List.drop_eq_getElem_cons htl, List.take_append_drop]
    · rw [List.length_take]; omega
    · split at h
      · obtain ⟨a, b, c⟩ := ackTlvs_same h
        exact ⟨a, b, c⟩
      · cases h; exact ⟨rfl, rfl, rfl⟩

theorem takeLv_cons (q : Octets) (x : UInt8) (rest : Octets) (h : q.length = x.toNat) :
    Spec.Sm.takeLv (x :: (q ++ rest)) = some (q, rest) := by
  have h1 : x = UInt8.ofNat q.length := by
    rw [h]; simp
  rw [h1]
  exact takeLv_append q rest (by rw [h]; exact x.toNat_lt)

/-- The SAPI, the granted QoS (up to the length the user asked for) and the radio priority reach the
neighbours; they are exactly those of the message if the spare bits are 0 and the granted QoS has the
length the user asked for. -/
theorem c79_partial (s s' : Sme) (b : Octets)
    (h : rxAckBody s b = (s', .ok ())) :
    ∃ g, readGranted b = some g ∧ s'.sapi % 16 = g.sapi ∧ s'.radioPrio % 8 = g.radioPrio ∧
      s'.qos.take g.qos.length = g.qos ∧
      (g.qos.length = s.qosLen → s'.sapi < 16 → s'.radioPrio < 8 →
        (∀ m, snsmActOut m s' = .snsmActInd m.tlli s'.nsapi g.sapi g.radioPrio g.qos) ∧
        ∀ id x, actCnf id s' 0 = .ok x → x = .actAcc id s'.nsapi s'.pco s'.addr g.radioPrio g.qos) := by
  obtain ⟨o0, o1, sapi, ql, q, rp, rest, rfl, h1, h2, h3, h4, h5⟩ := ack_fields h
  have hk := rxAckBody_keeps s (o0 :: o1 :: sapi :: ql :: (q ++ rp :: rest))
  rw [h] at hk
  have hr : readGranted (o0 :: o1 :: sapi :: ql :: (q ++ rp :: rest)) = some ⟨sapi.toNat % 16, q, rp.toNat % 8⟩ := by
    simp only [readGranted, takeLv_cons q ql (rp :: rest) h1]
  have htake : s'.qos.take q.length = q := by rw [h4]; simp
  refine ⟨_, hr, by rw [h3], by rw [h5], htake, ?_⟩
  intro hlen hsp hrp
  have e1 : s'.sapi = sapi.toNat % 16 := by rw [h3] at hsp ⊢; omega
  have e2 : s'.radioPrio = rp.toNat % 8 := by rw [h5] at hrp ⊢; omega
  have e3 : s'.qos.take s'.qosLen = q := by
    rw [hk.qosLen, ← hlen]; exact htake
  refine ⟨fun m => ?_, fun id x hx => ?_⟩
  · unfold snsmActOut; rw [e1, e2, e3]
  · unfold actCnf at hx
    cases hp : pcoToPrim s' with
    | err e => rw [hp] at hx; cases hx
    | ub f => rw [hp] at hx; cases hx
    | ok p =>
      have : p = s'.pco := by
        unfold pcoToPrim at hp
        split at hp
        · cases hp; rfl
        · cases hp
      rw [hp] at hx
      simp only [Res.bind_ok, if_true] at hx
      cases hx
      rw [this, e2, e3]

example : (rxAckBody ⟨0, 5, 3, ⟨0x21, none, none⟩, 0, List.replicate 22 0, 3, [], [], 0, .pending, .t3380, 0⟩
    [0x8a, 0x42, 5, 3, 1, 2, 3, 4]).2 = .ok () := by decide +kernel

/-- An ACCEPT taken for a running procedure: what `c79_partial` says of the decoded context is what is stored
and what SNDCP gets. -/
theorem c79_step (c : SmCtx) (sess : Nat) (b : Octets) (c' : SmCtx) (o : List SmOut) (rc : Option Errno)
    (hs : smStep c (.unitdataInd sess b) = .ok (c', o, rc)) (tl n sp rp : Nat) (q : Octets)
    (hm : .snsmActInd tl n sp rp q ∈ o) :
    ∃ id i s s', c.slot id i = some s ∧ s.sess = sess ∧ s.st = .pending ∧ rxAckBody s b = (s', .ok ()) ∧
      c'.slot id i = some s' ∧ o = [snsmActOut (c.ms id) s'] := by
  simp only [smStep] at hs
  rcases withSess_cases hs with hr | ⟨id, i, s, _, hsl, hse, _, _, hk⟩
  · cases hr; simp at hm
  · unfold smRx at hk
    split at hk
    · cases hk; simp at hm
    split at hk
    · cases hk; simp at hm
    · cases hk
    split at hk
    · split at hk
      · rename_i s' _ hb
        have hst := (rxAckBody_keeps s b).st
        rw [hb] at hst
        rcases dispatch_ok hk with ⟨s2, o2, hf, rfl, rfl, _⟩ | ⟨_, _, rfl, _⟩
        · unfold smFsm at hf
          split at hf
          all_goals first
            | (rename_i h1 h2; cases h2; done)
            | (cases hf; done)
            | skip
          rename_i h1 _
          cases hf
          exact ⟨id, i, s, s', hsl, hse, by rw [← hst]; exact h1, hb, by rw [slot_put, if_pos ⟨rfl, rfl⟩], rfl⟩
        · simp at hm
      · cases hk; simp at hm
      · cases hk
    · split at hk
      · split at hk
        · rename_i s' cause hb
          rcases dispatch_ok hk with ⟨s2, o2, hf, rfl, rfl, _⟩ | ⟨_, _, rfl, _⟩
          · exfalso
            rcases smFsm_some hf with ⟨h1, _⟩ | ⟨_, _, ⟨h1, _⟩ | ⟨h1, _⟩⟩ | ⟨⟨h1, _⟩ | ⟨h1, _⟩, _⟩ |
              ⟨k, x, h1, h2, rfl, hx, rfl⟩ | ⟨_, h1, _⟩ <;> try (cases h1)
            obtain ⟨_, ⟨_, rfl⟩ | ⟨_, rfl⟩⟩ := actCnf_ok hx <;> simp at hm
          · simp at hm
        · cases hk; simp at hm
        · cases hk
      · cases hk; simp at hm

/-- A request that is taken makes a context with the fields of the request (LLC SAPI 3 if none is asked for);
with `c81_partial` and `c78_request`, the message sent later says what the user asked for. -/
theorem c78_context (c : SmCtx) (r : ActReq) (c' : SmCtx) (o : List SmOut)
    (hs : smStep c (.actReq r) = .ok (c', o, none)) :
    ∃ s, c'.slot r.msId r.nsapi = some s ∧ s.nsapi = r.nsapi ∧ s.sapi = (if r.sapi = 0 then 3 else r.sapi) ∧
      s.addr = r.addr ∧ s.qos.take s.qosLen = r.qos ∧ s.qosLen = r.qos.length ∧ s.apn = r.apn ∧ s.pco = r.pco ∧
      s.sess = c.nextSess ∧ o = [.establishReq s.sess r.ptmsi r.ptmsiSig (r.ptmsi = 0xffffffff)] := by
  have st : ∀ d : SmCtx, d.nextSess = c.nextSess → startAct d r = .ok (c', o, none) →
      ∃ s, c'.slot r.msId r.nsapi = some s ∧ s.nsapi = r.nsapi ∧ s.sapi = (if r.sapi = 0 then 3 else r.sapi) ∧
      s.addr = r.addr ∧ s.qos.take s.qosLen = r.qos ∧ s.qosLen = r.qos.length ∧ s.apn = r.apn ∧ s.pco = r.pco ∧
      s.sess = c.nextSess ∧ o = [.establishReq s.sess r.ptmsi r.ptmsiSig (r.ptmsi = 0xffffffff)] := by
    intro d hd h
    unfold startAct at h
    split at h
    · cases h
    split at h
    · cases h
    rcases dispatch_ok h with ⟨s2, o2, hf, rfl, ho, _⟩ | ⟨_, _, _, hr⟩
    · have hf' : some ((toPending { d.ms r.msId with ptmsi := r.ptmsi, ptmsiSig := r.ptmsiSig } (newSme d.nextSess r))) =
          some (s2, o2) := by
        have hms : ({ (d.setMs r.msId { d.ms r.msId with ptmsi := r.ptmsi, ptmsiSig := r.ptmsiSig }) with
          nextSess := (d.nextSess + 1) % 2 ^ 32 } : SmCtx).ms r.msId =
          { d.ms r.msId with ptmsi := r.ptmsi, ptmsiSig := r.ptmsiSig } := by
          show (if r.msId = r.msId then _ else _) = _
          rw [if_pos rfl]
        rw [hms] at hf
        exact Res.ok.inj hf
      subst ho
      cases hf'
      refine ⟨{ newSme d.nextSess r with st := .pending, timer := .t3380 }, by rw [slot_put, if_pos ⟨rfl, rfl⟩], rfl, ?_, rfl, ?_, rfl, rfl, rfl, hd, rfl⟩
      · show (if r.sapi ≠ 0 then r.sapi else 3) = _
        by_cases h0 : r.sapi = 0 <;> simp [h0]
      · show (r.qos ++ List.replicate (qosMax - r.qos.length) 0).take r.qos.length = r.qos
        simp
    · cases hr
  simp only [smStep] at hs
  unfold actReqStep at hs
  split at hs
  · cases hs
  split at hs
  · cases hs
  split at hs
  · cases hs
  split at hs
  · split at hs
    · split at hs
      · cases hs
      · exact st c rfl hs
    · cases hs
  · exact st { (c.setMs r.msId freshMs) with order := r.msId :: c.order } rfl hs

/-! ## C80: a message that is refused changes nothing -/

/-- C80: a message for which an error is returned leaves every context as it was. -/
def C80Statement : Prop :=
  ∀ l c t, smRun smInit l = .ok (c, t) → ∀ sess b c' o e, smStep c (.unitdataInd sess b) = .ok (c', o, some e) →
    ∀ id i, c'.slot id i = c.slot id i

/-- A second ACCEPT for an active context is refused, but its SAPI and QoS are kept. -/
theorem c80_violated : ¬ C80Statement := by
  intro h
  have run : ∃ c t c' o e, smRun smInit c50Good = .ok (c, t) ∧
      smStep c (.unitdataInd 0 [0x8a, 0x42, 9, 3, 7, 7, 7, 1]) = .ok (c', o, some e) ∧
      (c.slot 1 5).map Sme.sapi = some 3 ∧ (c'.slot 1 5).map Sme.sapi = some 9 := by
    refine ⟨_, _, _, _, _, rfl, rfl, ?_, ?_⟩ <;> decide +kernel
  obtain ⟨c, t, c', o, e, h1, h2, h3, h4⟩ := run
  have := h _ c t h1 _ _ c' o e h2 1 5
  rw [this, h3] at h4
  exact absurd h4 (by decide)

/-- A refused message hands nothing out and does not touch the procedure: session, NSAPI, state, timer,
attempts, access point name and requested QoS length stay, and no context comes or goes. -/
theorem c80_partial (l : List SmIn) (c : SmCtx) (t : List SmObs) (h : smRun smInit l = .ok (c, t))
    (sess : Nat) (b : Octets) (c' : SmCtx) (o : List SmOut) (e : Errno)
    (hs : smStep c (.unitdataInd sess b) = .ok (c', o, some e)) (id i : Nat) :
    o = [] ∧
    (c.slot id i = none ↔ c'.slot id i = none) ∧
    ∀ x y, c.slot id i = some x → c'.slot id i = some y →
      y.sess = x.sess ∧ y.nsapi = x.nsapi ∧ y.st = x.st ∧ y.timer = x.timer ∧ y.attempts = x.attempts ∧
        y.apn = x.apn ∧ y.qosLen = x.qosLen := by
  have hi := run_inv smInit_inv h
  have ho : o = [] := by
    simp only [smStep] at hs
    rcases withSess_cases hs with hr | ⟨a, k, s, _, hsl, _, _, _, hk⟩
    · cases hr; rfl
    · unfold smRx at hk
      split at hk
      · cases hk; rfl
      split at hk
      · cases hk; rfl
      · cases hk
      split at hk
      · split at hk
        · rcases dispatch_ok hk with ⟨_, _, _, _, _, hr⟩ | ⟨_, _, hr, _⟩
          · cases hr
          · exact hr
        · cases hk; rfl
        · cases hk
      · split at hk
        · split at hk
          · rcases dispatch_ok hk with ⟨_, _, _, _, _, hr⟩ | ⟨_, _, hr, _⟩
            · cases hr
            · exact hr
          · cases hk; rfl
          · cases hk
        · cases hk; rfl
  refine ⟨ho, ?_⟩
  obtain ⟨_, hch, _⟩ := step_change hi hs
  have same : c'.slot id i = c.slot id i → (c.slot id i = none ↔ c'.slot id i = none) ∧
    ∀ x y, c.slot id i = some x → c'.slot id i = some y →
      y.sess = x.sess ∧ y.nsapi = x.nsapi ∧ y.st = x.st ∧ y.timer = x.timer ∧ y.attempts = x.attempts ∧
        y.apn = x.apn ∧ y.qosLen = x.qosLen := by
    intro he
    rw [he]
    refine ⟨Iff.rfl, fun x y hx hy => ?_⟩
    rw [hx] at hy; cases hy
    exact ⟨rfl, rfl, rfl, rfl, rfl, rfl, rfl⟩
  rcases hch with ⟨hsl, _, _⟩ | ⟨a, k, s', ht, hsl⟩
  · exact same (hsl id i)
  · by_cases hab : id = a ∧ i = k
    · obtain ⟨rfl, rfl⟩ := hab
      have hsl' : c'.slot id i = s' := by rw [hsl, if_pos ⟨rfl, rfl⟩]
      rw [hsl']
      generalize c.slot id i = old at ht
      generalize hrc : some e = rc' at ht
      generalize hev : SmIn.unitdataInd sess b = ev at ht
      cases ht with
      | keep ev x y o rc hk hne hq ho =>
        refine ⟨by simp, fun x' y' hx hy => ?_⟩
        cases hx; cases hy
        exact ⟨hk.sess, hk.nsapi, hk.st, hk.timer, hk.attempts, hk.apn, hk.qosLen⟩
      | _ => cases hrc
    · exact same (by rw [hsl, if_neg hab])

/-! ## C81: messages carry the identifiers of their context -/

/-- C81: an ACTIVATE PDP CONTEXT REQUEST is handed to GMM under the session identifier of its context, and
the contexts of one mobile station have different transaction identifiers. -/
def C81Statement : Prop :=
  ∀ l c t, smRun smInit l = .ok (c, t) →
    (∀ e c' o rc, smStep c e = .ok (c', o, rc) → ∀ sess pdu, .unitdataReq sess pdu ∈ o →
      ∃ id i s, c.slot id i = some s ∧ s.sess = sess ∧ pdu = buildActReq s) ∧
    ∀ id i j x y, c.slot id i = some x → c.slot id j = some y → i ≠ j → x.ti ≠ y.ti

/-- Mobile station 1 activates its first context, whose session identifier is 0. -/
theorem c81_violated : ¬ C81Statement := by
  intro h
  have run : ∃ c t c' o rc, smRun smInit [.actReq ⟨1, 5, 3, ⟨0x21, none, none⟩, [], [], [], 7, 8⟩] = .ok (c, t) ∧
      smStep c (.estAcc 0 7 8 9) = .ok (c', o, rc) ∧
      (∃ pdu, o = [.unitdataReq 1 pdu]) ∧ c.order = [1] ∧
      ∀ i < 16, ∀ s, c.slot 1 i = some s → s.sess = 0 := by
    refine ⟨_, _, _, _, _, rfl, rfl, ⟨_, rfl⟩, rfl, ?_⟩
    intro i hi s hs
    by_cases h5 : i = 5
    · subst h5
      cases hs
      rfl
    · exfalso
      have : (if i = 5 then _ else (freshMs.pdp i)) = some s := hs
      rw [if_neg h5] at this
      cases this
  obtain ⟨c, t, c', o, rc, h1, h2, ⟨pdu, rfl⟩, h4, h5⟩ := run
  obtain ⟨id, i, s, h6, h7, _⟩ := (h _ c t h1).1 _ _ _ _ h2 1 pdu (by simp)
  obtain ⟨_, h16, hm, _⟩ := (run_inv smInit_inv h1).slot id i s h6
  rw [h4] at hm
  have : id = 1 := by simpa using hm
  subst this
  have := h5 i h16 s h6
  omega

/-- All transaction identifiers are 0. -/
theorem c81_violated_ti : ∃ l c t x y, smRun smInit l = .ok (c, t) ∧ c.slot 1 5 = some x ∧ c.slot 1 6 = some y ∧
    x.ti = y.ti := by
  refine ⟨[.actReq ⟨1, 5, 3, ⟨0x21, none, none⟩, [], [], [], 7, 8⟩, .actReq ⟨1, 6, 3, ⟨0x21, none, none⟩, [], [], [], 7, 8⟩],
    _, _, _, _, rfl, rfl, rfl, rfl⟩

/-- The message itself is the request of the context whose establishment GMM has just confirmed, handed out
once and under the identifier of its mobile station. -/
theorem c81_partial (c : SmCtx)
    (e : SmIn) (c' : SmCtx) (o : List SmOut) (rc : Option Errno) (hs : smStep c e = .ok (c', o, rc))
    (k : Nat) (pdu : Octets) (hm : .unitdataReq k pdu ∈ o) :
    ∃ sess p g tl i s, e = .estAcc sess p g tl ∧ c.slot k i = some s ∧ s.sess = sess ∧
      s.st = .pending ∧ pdu = buildActReq s ∧ o = [.unitdataReq k pdu] := by
  have fsm : ∀ {id m s ev s' o'}, smFsm id m s ev = .ok (some (s', o')) → .unitdataReq k pdu ∈ o' →
      ev = .estCnf ∧ k = id ∧ s.st = .pending ∧ pdu = buildActReq s ∧ o' = [.unitdataReq k pdu] := by
    intro id m s ev s' o' hf hx
    unfold smFsm withCnf actCnf pcoToPrim at hf
    split at hf
    · cases hf; simp [establishOut] at hx
    · rename_i hst
      cases hf
      simp only [txActReq, List.mem_singleton, SmOut.unitdataReq.injEq] at hx
      obtain ⟨rfl, rfl⟩ := hx
      exact ⟨rfl, rfl, hst, rfl, rfl⟩
    · cases hf; simp at hx
    · split at hf
      · rename_i hr
        cases hf
        split at hr
        · simp only [Res.bind_ok] at hr
          split at hr <;> (cases hr; simp at hx)
        · cases hr
      · cases hf
      · cases hf
    · cases hf; simp [snsmActOut] at hx
    · split at hf
      · rename_i hr
        cases hf
        split at hr
        · simp only [Res.bind_ok] at hr
          split at hr <;> (cases hr; simp at hx)
        · cases hr
      · cases hf
      · cases hf
    · cases hf; simp at hx
    · cases hf; simp at hx
    · cases hf
  have disp : ∀ {d : SmCtx} {id i s ev pre}, smDispatch d id i s ev pre = .ok (c', o, rc) →
      .unitdataReq k pdu ∉ pre →
      ev = .estCnf ∧ k = id ∧ s.st = .pending ∧ pdu = buildActReq s ∧ o = pre ++ [.unitdataReq k pdu] := by
    intro d id i s ev pre hd hpre
    rcases dispatch_ok hd with ⟨s', o', hf, _, rfl, _⟩ | ⟨_, _, rfl, _⟩
    · rcases List.mem_append.mp hm with h1 | h1
      · exact absurd h1 hpre
      · obtain ⟨a, b, d, e, rfl⟩ := fsm hf h1
        exact ⟨a, b, d, e, rfl⟩
    · exact absurd hm hpre
  cases e with
  | actReq r =>
    exfalso
    simp only [smStep] at hs
    have st : ∀ {d : SmCtx}, startAct d r = .ok (c', o, rc) → False := by
      intro d hd
      unfold startAct at hd
      split at hd
      · cases hd
      split at hd
      · cases hd
      obtain ⟨h1, _⟩ := disp hd (by simp)
      cases h1
    unfold actReqStep at hs
    split at hs
    · cases hs
    split at hs
    · cases hs
    split at hs
    · cases hs
    split at hs
    · split at hs
      · split at hs
        · cases hs; simp at hm
        · exact st hs
      · cases hs
    · exact st hs
  | estAcc sess p g tl =>
    simp only [smStep] at hs
    rcases withSess_cases hs with hr | ⟨a, i, s, _, hsl, hse, _, _, hk⟩
    · cases hr; simp at hm
    · obtain ⟨_, rfl, h2, h3, h4⟩ := disp hk (by simp)
      exact ⟨sess, p, g, tl, i, s, rfl, hsl, hse, h2, h3, h4⟩
  | estRej sess =>
    simp only [smStep] at hs
    rcases withSess_cases hs with hr | ⟨a, i, s, _, hsl, hse, _, _, hk⟩
    · cases hr; simp at hm
    · obtain ⟨h1, _⟩ := disp hk (by simp); cases h1
  | relInd sess =>
    simp only [smStep] at hs
    rcases withSess_cases hs with hr | ⟨a, i, s, _, hsl, hse, _, _, hk⟩
    · cases hr; simp at hm
    · obtain ⟨h1, _⟩ := disp hk (by simp); cases h1
  | unitdataInd sess b =>
    simp only [smStep] at hs
    rcases withSess_cases hs with hr | ⟨a, i, s, _, hsl, hse, _, _, hk⟩
    · cases hr; simp at hm
    · unfold smRx at hk
      split at hk
      · cases hk; simp at hm
      split at hk
      · cases hk; simp at hm
      · cases hk
      split at hk
      · split at hk
        · obtain ⟨h1, _⟩ := disp hk (by simp); cases h1
        · cases hk; simp at hm
        · cases hk
      · split at hk
        · split at hk
          · obtain ⟨h1, _⟩ := disp hk (by simp); cases h1
          · cases hk; simp at hm
          · cases hk
        · cases hk; simp at hm
  | modifyInd sess p g tl status =>
    simp only [smStep] at hs
    rcases withSess_cases hs with hr | ⟨a, i, s, _, hsl, hse, _, _, hk⟩
    · cases hr; simp at hm
    · cases hk
      cases status with
      | none => simp at hm
      | some st =>
        simp only [statusOuts, List.mem_filterMap] at hm
        obtain ⟨j, _, hj⟩ := hm
        split at hj
        · split at hj
          · simp [snsmDeactOut] at hj
          · cases hj
        · cases hj
  | snsmActRsp tl n =>
    simp only [smStep] at hs
    rcases withNsapi_cases hs with hr | hr | ⟨a, s, _, hsl, hk⟩
    · cases hr; simp at hm
    · cases hr
    · obtain ⟨h1, _⟩ := disp hk (by simp); cases h1
  | snsmDeactRsp tl n =>
    simp only [smStep] at hs
    rcases withNsapi_cases hs with hr | hr | ⟨a, s, _, hsl, hk⟩
    · cases hr; simp at hm
    · cases hr
    · simp only [deactOut, pcoToPrim] at hk
      split at hk
      · rename_i hd
        split at hd
        · simp only [Res.bind_ok] at hd
          cases hd
          obtain ⟨h1, _⟩ := disp hk (by simp); cases h1
        · cases hd
      · cases hk; simp at hm
      · cases hk
  | timeout id i =>
    exfalso
    simp only [smStep] at hs
    split at hs
    · split at hs
      · unfold smTimeout at hs
        split at hs
        · cases hs; simp at hm
        · cases hs; simp at hm
        · dsimp only at hs
          split at hs
          · cases hs
          split at hs
          · obtain ⟨h1, _⟩ := disp hs (by simp); cases h1
          · cases hs; simp [toPending, establishOut] at hm
      · cases hs; simp at hm
    · cases hs; simp at hm

example : ∃ c t, smRun smInit (c50Good.take 2) = .ok (c, t) ∧ ∃ a b pdu, t = [a, b] ∧ b.outs = [.unitdataReq 1 pdu] :=
  ⟨_, _, rfl, _, _, _, rfl, rfl⟩

/-! ## C82: PDP context status -/

theorem status_step {c : SmCtx} (hi : SmInv c) {sess p g tl : Nat} {o1 o2 : UInt8} {c' : SmCtx} {o : List SmOut}
    {rc : Option Errno}
    (hs : smStep c (.modifyInd sess p g tl (some (o1.toNat + 256 * o2.toNat))) = .ok (c', o, rc)) :
    (o = [] ∧ rc = some .einval ∧ ∀ id i s, c.slot id i = some s → s.sess ≠ sess) ∨
    ∃ id i s, c.slot id i = some s ∧ s.sess = sess ∧ rc = none ∧ o.Nodup ∧
      (∀ x, x ∈ o ↔ ∃ n, x = .snsmDeactInd tl n ∧ (c.slot id n).isSome ∧ Spec.Sm.statusActive o1 o2 n = false) ∧
      c.bySess sess = some (id, i) ∧ c' = c.setMs id (withGmm (c.ms id) p g tl) := by
  have hst : ∀ n, statusInactive (o1.toNat + 256 * o2.toNat) n = !Spec.Sm.statusActive o1 o2 n := by
    intro n
    have a1 : (o1.toNat + 256 * o2.toNat) % 256 = o1.toNat := by have := o1.toNat_lt; omega
    have a2 : (o1.toNat + 256 * o2.toNat) / 256 % 256 = o2.toNat := by
      have := o1.toNat_lt; have := o2.toNat_lt; omega
    unfold statusInactive Spec.Sm.statusActive
    rw [a1, a2]
    split <;> rfl
  simp only [smStep] at hs
  rcases withSess_cases hs with hr | ⟨id, i, s, hby, hsl, hse, _, _, hk⟩
  · left
    cases hr
    refine ⟨rfl, rfl, ?_⟩
    intro id i s hsl hse
    obtain ⟨_, h16, hm, _⟩ := hi.slot id i s hsl
    have hb : c.bySess sess ≠ none := by
      unfold SmCtx.bySess
      intro hn
      rw [List.findSome?_eq_none_iff] at hn
      have h1 := hn id hm
      have h2 : (c.ms id).slotOf sess ≠ none := by
        unfold SmMs.slotOf
        intro hn2
        rw [List.find?_eq_none] at hn2
        have h3 := hn2 i (by simpa using h16)
        have h4 : (c.ms id).pdp i = some s := hsl
        simp [h4, hse] at h3
      cases h5 : (c.ms id).slotOf sess with
      | none => exact h2 h5
      | some j => rw [h5] at h1; cases h1
    unfold withSess at hs
    cases hb' : c.bySess sess with
    | none => exact hb hb'
    | some q =>
      obtain ⟨a, k⟩ := q
      obtain ⟨_, _, s2, h3, _⟩ := bySess_some hb'
      have h3' : (c.ms a).pdp k = some s2 := h3
      rw [hb'] at hs
      simp only [h3', Res.ok.injEq, Prod.mk.injEq] at hs
      exact absurd hs.2.2 (by simp)
  · right
    cases hk
    refine ⟨id, i, s, hsl, hse, rfl, ?_, ?_, hby, rfl⟩
    · unfold statusOuts List.Nodup
      rw [List.pairwise_filterMap]
      refine List.Pairwise.imp_of_mem ?_ List.nodup_range
      intro a b _ _ hab x hx y hy hxy
      have nsap : ∀ k z, (match (withGmm (c.ms id) p g tl).pdp k with
          | some s => if statusInactive (o1.toNat + 256 * o2.toNat) s.nsapi then
              some (snsmDeactOut (withGmm (c.ms id) p g tl) s) else none
          | none => none) = some z → z = .snsmDeactInd tl k := by
        intro k z hz
        split at hz
        · rename_i s2 hs2
          have := (hi.slot id k s2 hs2).1
          split at hz
          · cases hz; simp [snsmDeactOut, withGmm, this]
          · cases hz
        · cases hz
      have e1 := nsap a x hx
      have e2 := nsap b y hy
      rw [e1, e2] at hxy
      cases hxy
      exact hab rfl
    · intro x
      simp only [statusOuts, List.mem_filterMap, List.mem_range]
      constructor
      · rintro ⟨n, hn, hx⟩
        split at hx
        · rename_i s2 hs2
          have hs2' : c.slot id n = some s2 := hs2
          have hns := (hi.slot id n s2 hs2').1
          split at hx
          · rename_i hin
            rw [hst, hns] at hin
            cases hx
            refine ⟨n, ?_, by rw [hs2']; rfl, by simpa using hin⟩
            simp [snsmDeactOut, withGmm, hns]
          · cases hx
        · cases hx
      · rintro ⟨n, rfl, hn, hin⟩
        cases hs2 : c.slot id n with
        | none => rw [hs2] at hn; cases hn
        | some s2 =>
          obtain ⟨hns, h16, _⟩ := hi.slot id n s2 hs2
          refine ⟨n, h16, ?_⟩
          have hs2' : (withGmm (c.ms id) p g tl).pdp n = some s2 := hs2
          rw [hs2']
          simp only
          rw [hst, hns, hin]
          simp [snsmDeactOut, withGmm, hns]

/-- C82: when GMM passes on the network's view of the contexts, SNDCP is told to deactivate exactly those
contexts of that mobile station that the layer holds and the network calls inactive, each once, under the new
TLLI; nothing else is handed out. -/
theorem c82_status (l : List SmIn) (c : SmCtx) (t : List SmObs) (h : smRun smInit l = .ok (c, t))
    (sess p g tl : Nat) (o1 o2 : UInt8) (c' : SmCtx) (o : List SmOut) (rc : Option Errno)
    (hs : smStep c (.modifyInd sess p g tl (some (o1.toNat + 256 * o2.toNat))) = .ok (c', o, rc)) :
    (o = [] ∧ rc = some .einval ∧ ∀ id i s, c.slot id i = some s → s.sess ≠ sess) ∨
    ∃ id i s, c.slot id i = some s ∧ s.sess = sess ∧ rc = none ∧ o.Nodup ∧
      ∀ x, x ∈ o ↔ ∃ n, x = .snsmDeactInd tl n ∧ (c.slot id n).isSome ∧ Spec.Sm.statusActive o1 o2 n = false := by
  rcases status_step (run_inv smInit_inv h) hs with h1 | ⟨id, i, s, h1, h2, h3, h4, h5, -⟩
  · exact Or.inl h1
  · exact Or.inr ⟨id, i, s, h1, h2, h3, h4, h5⟩

example : ∃ c t, smRun smInit (c50Good ++ [.modifyInd 0 7 8 0xc0000002 (some 0)]) = .ok (c, t) ∧
    (t.getLast?.map SmObs.outs) = some [.snsmDeactInd 0xc0000002 5] := by
  refine ⟨_, _, rfl, ?_⟩; decide +kernel

/-! ## C83: the end of an active context is announced -/

/-- C83: when an active context stops being active, the user gets a deactivation indication for it. -/
def C83Statement : Prop :=
  ∀ l c t, smRun smInit l = .ok (c, t) → ∀ e c' o rc, smStep c e = .ok (c', o, rc) → ∀ id n,
    stOf c id n = some .active → stOf c' id n ≠ some .active → ∃ cause pco, .deactInd id n cause pco ∈ o

/-- GMM releases: the context is dropped silently. -/
theorem c83_violated : ¬ C83Statement := by
  intro h
  have run : ∃ c t c' rc, smRun smInit c50Good = .ok (c, t) ∧ smStep c (.relInd 0) = .ok (c', [], rc) ∧
      stOf c 1 5 = some .active ∧ stOf c' 1 5 = some .inactive := by
    refine ⟨_, _, _, _, rfl, rfl, ?_, ?_⟩ <;> decide +kernel
  obtain ⟨c, t, c', rc, h1, h2, h3, h4⟩ := run
  obtain ⟨_, _, h5⟩ := h _ c t h1 _ c' [] rc h2 1 5 h3 (by rw [h4]; decide)
  cases h5

/-- Only a release by GMM or SNDCP's answer to a deactivation ends an active context, and in the second
case the user is told, with the cause "reactivation required". -/
theorem c83_partial (l : List SmIn) (c : SmCtx) (t : List SmObs) (h : smRun smInit l = .ok (c, t))
    (e : SmIn) (c' : SmCtx) (o : List SmOut) (rc : Option Errno) (hs : smStep c e = .ok (c', o, rc))
    (id n : Nat) (ha : stOf c id n = some .active) (hn : stOf c' id n ≠ some .active) :
    (∃ sess, e = .relInd sess) ∨
    (∃ tl k, e = .snsmDeactRsp tl k) ∧ ∃ pco, o = [.deactInd id n causeReactRqd pco] := by
  have hi := run_inv smInit_inv h
  obtain ⟨_, hch, _⟩ := step_change hi hs
  rcases hch with ⟨hsl, _, _⟩ | ⟨a, b, s', ht, hsl⟩
  · exact absurd (by unfold stOf at ha ⊢; rw [hsl]; exact ha) hn
  · by_cases hab : id = a ∧ n = b
    · obtain ⟨rfl, rfl⟩ := hab
      have hst' : stOf c' id n = s'.map Sme.st := by unfold stOf; rw [hsl, if_pos ⟨rfl, rfl⟩]
      rw [hst'] at hn
      generalize hold : c.slot id n = old at ht
      have hsto : old.map Sme.st = some .active := by unfold stOf at ha; rw [← hold]; exact ha
      cases ht with
      | start r m s h1 h2 h3 h4 h5 h6 h7 h8 h9 => cases hsto
      | keep ev x y o rc hk hne hq ho =>
        exfalso; apply hn
        simpa [hk.st] using hsto
      | drop ev x o hst ho =>
        rcases ho with ⟨⟨k, rfl⟩, rfl⟩ | ⟨⟨k, rfl⟩, rfl⟩ | ⟨⟨tl, k, rfl⟩, p, rfl⟩
        · exfalso
          simp only [smStep] at hs
          rcases withSess_cases hs with hr | ⟨a, i, s, _, hsl2, hse, _, _, hk⟩
          · cases hr
          · rcases dispatch_ok hk with ⟨s2, o2, hf, rfl, _, _⟩ | ⟨_, _, _, hr⟩
            · have h1 := hsl id n
              rw [if_pos ⟨rfl, rfl⟩, slot_put] at h1
              by_cases hai : id = a ∧ n = i
              · obtain ⟨rfl, rfl⟩ := hai
                rw [hold] at hsl2
                cases hsl2
                have hx : x.st = .active := by simpa using hsto
                simp [smFsm, hx] at hf
              · rw [if_neg hai, hold] at h1
                have hx : x.st = .active := by simpa using hsto
                have : x.st = (toInactive x).st := congrArg Sme.st (Option.some.inj h1)
                rw [hx] at this; cases this
            · cases hr
        · exact Or.inl ⟨k, rfl⟩
        · exact Or.inr ⟨⟨tl, k, rfl⟩, p, rfl⟩
      | activated t k x hst => rw [Option.map_some, hst] at hsto; cases hsto
      | rejected k p x y z cause hst hk hq hb hx => rw [Option.map_some, hst] at hsto; cases hsto
      | gaveUp x hst h4 => rw [Option.map_some, hst] at hsto; cases hsto
      | retry m x hst h4 => rw [Option.map_some, hst] at hsto; cases hsto
      | freed x hf =>
        have := ((hi.slot id n x hold).2.2.2.2.2.2.2.1).mp hf
        rw [Option.map_some, this] at hsto; cases hsto
    · exact absurd (by unfold stOf at ha ⊢; rw [hsl, if_neg hab]; exact ha) hn

example : ∃ c t c' o rc, smRun smInit c50Good = .ok (c, t) ∧
    smStep c (.snsmDeactRsp 0xc0000001 5) = .ok (c', o, rc) ∧ stOf c' 1 5 = some .inactive ∧
    o = [.deactInd 1 5 39 []] := by
  refine ⟨_, _, _, _, _, rfl, rfl, ?_, ?_⟩ <;> decide +kernel

/-! ## C84: the layer survives every history -/

/-- What the user and SNDCP may send: an NSAPI from 5 to 15 and fields that fit into the primitive. -/
def LocalOk : SmIn → Prop
  | .actReq r => 5 ≤ r.nsapi ∧ r.nsapi ≤ 15 ∧ r.qos.length ≤ 22 ∧ r.pco.length ≤ 253
  | .snsmActRsp _ n => 5 ≤ n ∧ n ≤ 15
  | .snsmDeactRsp _ n => 5 ≤ n ∧ n ≤ 15
  | _ => True

/-- C84: no history of such primitives, timer expiries and arbitrary messages from the network makes the
layer abort or access memory outside its objects. -/
def C84Statement : Prop := ∀ l, (∀ e ∈ l, LocalOk e) → (smRun smInit l).Safe

/-- A REJECT with 254 octets of protocol configuration options: 0x27 254 …. -/
theorem c84_violated : ¬ C84Statement := by
  intro h
  have := h [.actReq ⟨1, 5, 3, ⟨0x21, none, none⟩, [], [], [], 7, 8⟩,
    .unitdataInd 0 ([0x8a, 0x43, 26, 0x27, 254] ++ List.replicate 254 0)] (by
      intro e he
      simp only [List.mem_cons, List.not_mem_nil, or_false] at he
      rcases he with rfl | rfl
      · simp [LocalOk]
      · trivial)
  revert this
  decide +kernel

/-- The protocol configuration options among the elements that start at `pos` fit into a primitive. -/
def PcoElementOk (b : Octets) (pos : Nat) : Prop :=
  ∀ ies e, ieParse smTlvDef b pos = .ok ies → ieGet ies iePco = some e → e.len ≤ 253

/-- Messages from the network whose PDP address elements are well formed and whose protocol configuration
options fit into the primitives. -/
def NetOk : SmIn → Prop
  | .unitdataInd _ b =>
    AddrElementOk b (5 + (b.getD 3 0).toNat) ∧ PcoElementOk b (5 + (b.getD 3 0).toNat) ∧ PcoElementOk b 3
  | _ => True

/-- Every context can report its protocol configuration options. -/
def PcoInv (c : SmCtx) : Prop := ∀ id i s, c.slot id i = some s → s.pco.length ≤ 253

/-- A step that goes well and leaves this so. -/
def GoodStep : SmRes → Prop
  | .ok (c, _, _) => PcoInv c
  | .err _ => True
  | .ub _ => False

theorem pco_put {c : SmCtx} (hc : PcoInv c) {s : Sme} (hs : s.pco.length ≤ 253) (id i : Nat) :
    PcoInv (c.put id i (some s)) := by
  intro a b x hx
  rw [slot_put] at hx
  split at hx
  · cases hx; exact hs
  · exact hc a b x hx

theorem good_dispatch {c : SmCtx} (hc : PcoInv c) {s : Sme} (hs : s.pco.length ≤ 253) (id i : Nat) (ev : SmEv)
    (pre : List SmOut) : GoodStep (smDispatch c id i s ev pre) := by
  have hcnf : ∀ (m k : Nat) (x : Sme), x.pco = s.pco → withCnf x (actCnf m s k) =
      .ok (some (x, [if k = 0 then .actAcc m s.nsapi s.pco s.addr s.radioPrio (s.qos.take s.qosLen)
        else .actRej m s.nsapi s.pco k])) := by
    intro m k x _
    have : pcoToPrim s = .ok s.pco := by unfold pcoToPrim; exact if_pos hs
    unfold withCnf actCnf
    rw [this]
    simp only [Res.bind_ok]
    by_cases hk : k = 0 <;> simp [hk]
  have key : ∃ r, smFsm id (c.ms id) s ev = .ok r ∧ ∀ s' o, r = some (s', o) → s'.pco = s.pco := by
    unfold smFsm
    split
    · exact ⟨_, rfl, fun s' o h => by cases h; rfl⟩
    · exact ⟨_, rfl, fun s' o h => by cases h; rfl⟩
    · exact ⟨_, rfl, fun s' o h => by cases h; rfl⟩
    · rw [hcnf _ _ (toInactive s) rfl]; exact ⟨_, rfl, fun s' o h => by cases h; rfl⟩
    · exact ⟨_, rfl, fun s' o h => by cases h; rfl⟩
    · rw [hcnf _ _ (toActive s) rfl]; exact ⟨_, rfl, fun s' o h => by cases h; rfl⟩
    · exact ⟨_, rfl, fun s' o h => by cases h; rfl⟩
    · exact ⟨_, rfl, fun s' o h => by cases h; rfl⟩
    · exact ⟨_, rfl, fun s' o h => by cases h⟩
  obtain ⟨r, hr, hp⟩ := key
  unfold smDispatch
  rw [hr]
  cases r with
  | none => exact pco_put hc hs id i
  | some q =>
    obtain ⟨s', o⟩ := q
    exact pco_put hc (by rw [hp s' o rfl]; exact hs) id i

theorem good_withSess {c : SmCtx} (hc : PcoInv c) (sess : Nat) (k : Nat → Nat → Sme → SmRes)
    (hk : ∀ id i s, c.slot id i = some s → GoodStep (k id i s)) : GoodStep (withSess c sess k) := by
  generalize hr : withSess c sess k = r
  rcases withSess_cases hr with h | ⟨id, i, s, _, hsl, _, _, _, h⟩
  · rw [h]; exact hc
  · rw [← h]; exact hk id i s hsl

theorem good_withNsapi {c : SmCtx} (hc : PcoInv c) (tl n : Nat) (h5 : 5 ≤ n) (h15 : n ≤ 15)
    (k : Nat → Nat → Sme → SmRes) (hk : ∀ id i s, c.slot id i = some s → GoodStep (k id i s)) :
    GoodStep (withNsapi c tl n k) := by
  unfold withNsapi
  cases c.msByTlli tl with
  | none => exact hc
  | some id =>
    simp only
    rw [if_pos (by simp [nsapiValid, h5, h15])]
    cases h3 : (c.ms id).pdp n with
    | none => exact hc
    | some s => exact hk id n s h3

theorem takePco_len {s : Sme} {b : Octets} {ies : List Ie} (hs : s.pco.length ≤ 253)
    (h : ∀ e, ieGet ies iePco = some e → e.len ≤ 253) : (takePco s b ies).1.pco.length ≤ 253 := by
  unfold takePco
  cases hg : ieGet ies iePco with
  | none => exact hs
  | some e =>
    simp only
    split
    · exact hs
    · cases hr : rdN b e.ofs e.len with
      | err x => exact hs
      | ub f => exact hs
      | ok v =>
        unfold rdN at hr
        split at hr
        · cases hr
          show ((b.drop e.ofs).take e.len).length ≤ 253
          rw [List.length_take]
          have := h e hg
          omega
        · cases hr

theorem takeAddr_pco (s : Sme) (b : Octets) (ies : List Ie) : (takeAddr s b ies).1.pco = s.pco := by
  obtain ⟨_, _, _, h⟩ := takeAddr_same (s := s) (b := b) (ies := ies) (s' := (takeAddr s b ies).1)
    (r := (takeAddr s b ies).2) rfl
  exact h

theorem ackTlvs_pco {s : Sme} {b : Octets} {pos : Nat} (hs : s.pco.length ≤ 253)
    (h : PcoElementOk b pos) :
    (ackTlvs s b pos).1.pco.length ≤ 253 := by
  unfold ackTlvs
  cases hp : ieParse smTlvDef b pos with
  | err e => exact hs
  | ub f => exact hs
  | ok ies =>
    simp only
    have ha := takeAddr_pco s b ies
    generalize takeAddr s b ies = q at ha
    obtain ⟨s1, r1⟩ := q
    have hs1 : s1.pco.length ≤ 253 := by rw [ha]; exact hs
    cases r1 with
    | ok u => exact takePco_len hs1 (fun e he => h ies e hp he)
    | err e => exact hs1
    | ub f => exact hs1

theorem rd3 {b : Octets} {v : Nat} (h : rd b 3 = .ok v) : v = (b.getD 3 0).toNat := by
  unfold rd at h
  split at h
  · rename_i hl
    cases h
    simp [List.getD_eq_getElem?_getD, hl]
  · cases h

theorem rxAck_pco {s : Sme} {b : Octets} (hs : s.pco.length ≤ 253)
    (h : PcoElementOk b (5 + (b.getD 3 0).toNat)) :
    (rxAckBody s b).1.pco.length ≤ 253 := by
  unfold rxAckBody
  split
  · exact hs
  unfold rdK
  split
  · dsimp only
    split
    · split
      · exact hs
      split
      · exact hs
      split
      · exact hs
      split
      · split
        · rename_i hql _ _ _ _ _ _ _
          exact ackTlvs_pco hs (by rw [rd3 hql]; exact h)
        · exact hs
      · exact hs
      · exact hs
    · exact hs
    · exact hs
  · exact hs
  · exact hs

theorem rxRej_pco {s : Sme} {b : Octets} (hs : s.pco.length ≤ 253)
    (h : PcoElementOk b 3) :
    (rxRejBody s b).1.pco.length ≤ 253 := by
  have ht : (rejTlvs s b 3).1.pco.length ≤ 253 := by
    unfold rejTlvs
    cases hp : ieParse smTlvDef b 3 with
    | err e => exact hs
    | ub f => exact hs
    | ok ies => exact takePco_len hs (fun e he => h ies e hp he)
  unfold rxRejBody
  split
  · exact hs
  unfold rdK
  split
  · dsimp only
    split
    · generalize rejTlvs s b 3 = q at ht
      obtain ⟨s1, r1⟩ := q
      cases r1 <;> exact ht
    · exact hs
  · exact hs
  · exact hs

theorem good_step {c : SmCtx} (hi : SmInv c) (hc : PcoInv c) (e : SmIn) (hl : LocalOk e) (hn : NetOk e)
    : GoodStep (smStep c e) := by
  have hset : ∀ id (m : SmMs), m.pdp = (c.ms id).pdp → PcoInv (c.setMs id m) := by
    intro id m hm a b x hx
    rw [slot_setMs_same c id m hm] at hx
    exact hc a b x hx
  cases e with
  | actReq r =>
    obtain ⟨h5, h15, hq, hp⟩ := hl
    have st : ∀ d : SmCtx, PcoInv d → (d.slot r.msId r.nsapi) = none → GoodStep (startAct d r) := by
      intro d hd hnone
      unfold startAct
      rw [if_neg (by omega)]
      have : (d.ms r.msId).pdp r.nsapi = none := hnone
      rw [this]
      simp only [Option.isSome_none, Bool.false_eq_true, if_false]
      refine good_dispatch ?_ hp _ _ _ _
      intro a b x hx
      have : (d.setMs r.msId { d.ms r.msId with ptmsi := r.ptmsi, ptmsiSig := r.ptmsiSig }).slot a b = some x := hx
      rw [slot_setMs_same d r.msId { d.ms r.msId with ptmsi := r.ptmsi, ptmsiSig := r.ptmsiSig } rfl] at this
      exact hd a b x this
    simp only [smStep]
    unfold actReqStep
    rw [if_neg (by unfold qosMax; omega), if_neg (by unfold pcoCtxMax; omega), if_neg (by unfold pcoPrimMax; omega)]
    split
    · rw [if_pos (by simp [nsapiValid, h5, h15])]
      cases h3 : (c.ms r.msId).pdp r.nsapi with
      | some s => exact hc
      | none => exact st c hc h3
    · refine st _ ?_ ?_
      · intro a b x hx
        by_cases hab : a = r.msId
        · subst hab
          exfalso
          have : (if r.msId = r.msId then freshMs else c.ms r.msId).pdp b = some x := hx
          rw [if_pos rfl] at this
          cases this
        · have : (if a = r.msId then freshMs else c.ms a).pdp b = some x := hx
          rw [if_neg hab] at this
          exact hc a b x this
      · show (if r.msId = r.msId then freshMs else c.ms r.msId).pdp r.nsapi = none
        rw [if_pos rfl]; rfl
  | estAcc sess p g tl =>
    simp only [smStep]
    exact good_withSess hc _ _ fun id i s hs => good_dispatch (hset id (withGmm (c.ms id) p g tl) rfl) (hc _ _ _ hs) _ _ _ _
  | estRej sess =>
    simp only [smStep]
    exact good_withSess hc _ _ fun id i s hs => good_dispatch hc (hc _ _ _ hs) _ _ _ _
  | relInd sess =>
    simp only [smStep]
    exact good_withSess hc _ _ fun id i s hs => good_dispatch hc (hc _ _ _ hs) _ _ _ _
  | unitdataInd sess b =>
    simp only [smStep]
    refine good_withSess hc _ _ fun id i s hs => ?_
    have hp := hc _ _ _ hs
    have h1 := (c77_partial s b).1
    have h2 := (c77_partial s b).2 hn.1
    have h3 := rxAck_pco (b := b) hp hn.2.1
    have h4 := rxRej_pco (b := b) hp hn.2.2
    unfold smRx
    split
    · exact hc
    rename_i hlen
    rw [rd_of_lt (by omega)]
    simp only
    split
    · generalize rxAckBody s b = q at h2 h3
      obtain ⟨s', r⟩ := q
      cases r with
      | ok u => exact good_dispatch hc h3 _ _ _ _
      | err e => exact pco_put hc h3 _ _
      | ub f => exact absurd h2 (by simp)
    · split
      · generalize rxRejBody s b = q at h1 h4
        obtain ⟨s', r⟩ := q
        cases r with
        | ok u => exact good_dispatch hc h4 _ _ _ _
        | err e => exact pco_put hc h4 _ _
        | ub f => exact absurd h1 (by simp)
      · exact hc
  | modifyInd sess p g tl status =>
    simp only [smStep]
    exact good_withSess hc _ _ fun id i s hs => hset _ _ rfl
  | snsmActRsp tl n =>
    simp only [smStep]
    exact good_withNsapi hc _ _ hl.1 hl.2 _ fun id i s hs => good_dispatch hc (hc _ _ _ hs) _ _ _ _
  | snsmDeactRsp tl n =>
    simp only [smStep]
    refine good_withNsapi hc _ _ hl.1 hl.2 _ fun id i s hs => ?_
    have : pcoToPrim s = .ok s.pco := by unfold pcoToPrim; exact if_pos (hc _ _ _ hs)
    have hd : deactOut id s causeReactRqd = .ok (.deactInd id s.nsapi causeReactRqd s.pco) := by
      unfold deactOut; rw [this]; rfl
    rw [hd]
    exact good_dispatch hc (hc _ _ _ hs) _ _ _ _
  | timeout id i =>
    simp only [smStep]
    split
    · cases hs : (c.ms id).pdp i with
      | none => exact hc
      | some s =>
        have hs' : c.slot id i = some s := hs
        have hp := hc _ _ _ hs'
        show GoodStep (smTimeout c id i s)
        unfold smTimeout
        cases htm : s.timer with
        | off => exact hc
        | free =>
          intro a b x hx
          rw [slot_put] at hx
          split at hx
          · cases hx
          · exact hc a b x hx
        | t3380 =>
          dsimp only
          have := ((hi.slot id i s hs').2.2.2.2.2.2.1).mp htm
          rw [if_neg (by rw [this]; simp)]
          split
          · exact good_dispatch (s := { s with attempts := (s.attempts + 1) % 256, timer := .t3380 }) hc hp _ _ _ _
          · exact pco_put (s := { s with attempts := (s.attempts + 1) % 256, st := .pending, timer := .t3380 }) hc hp _ _
    · exact hc

/-- The layer survives every history in which the network's messages are well formed in two respects: PDP
address elements hold what their type says, and protocol configuration options have at most 253 octets. -/
theorem c84_partial (l : List SmIn) (hl : ∀ e ∈ l, LocalOk e) (hn : ∀ e ∈ l, NetOk e) :
    (smRun smInit l).Safe := by
  have gen : ∀ c, SmInv c → PcoInv c → (smRun c l).Safe := by
    induction l with
    | nil => intro c _ _; exact Res.safe_ok _
    | cons e l ih =>
      intro c hi hc
      have hg := good_step hi hc e (hl e (by simp)) (hn e (by simp))
      unfold smRun
      cases hs : smStep c e with
      | err x => simp
      | ub f => rw [hs] at hg; exact hg.elim
      | ok q =>
        obtain ⟨c1, o, rc⟩ := q
        rw [hs] at hg
        have h1 := ih (fun x hx => hl x (by simp [hx])) (fun x hx => hn x (by simp [hx])) c1 (step_inv hi hs) hg
        cases hr : smRun c1 l with
        | ok q => obtain ⟨c2, t⟩ := q; simp [hr]
        | err x => simp [hr]
        | ub f => rw [hr] at h1; exact absurd h1 (by simp)
  exact gen smInit smInit_inv (by intro id i s h; simp [smInit, SmCtx.slot, freshMs] at h)

example : ∀ e ∈ c50Good, LocalOk e := by
  intro e he
  simp only [c50Good, List.mem_cons, List.not_mem_nil, or_false] at he
  rcases he with rfl | rfl | rfl | rfl <;> simp [LocalOk]

end Verif.Props
