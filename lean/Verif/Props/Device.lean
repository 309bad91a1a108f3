import Verif.Sm.Device
import Verif.Props.Phone
import Verif.Props.GmmOverLlc
import Verif.Props.EndToEnd
import Verif.Props.SmPdu
/-!
# C169: from switching on to packets
-/
namespace Verif.Props
open Verif Verif.Gmm Verif.Sm Verif.Gsm Verif.Spec

/-- The LLC layer of the network knows a TLLI, has sent and received nothing on the SAPI of the PDP context, and
goes by an N201-U of the standard. -/
def NetKnows (net : Llc.Ctx) (t sapi : Nat) : Prop :=
  ∃ i m, net.find t = some i ∧ net.llmes[i]? = some m ∧ (m.lle sapi).sapi = sapi ∧ m.suspended = false ∧
    (m.lle sapi).vuSend = 0 ∧ (m.lle sapi).vuRecv = 0 ∧ (m.lle sapi).params.n201u ≤ 1520

/-- Packets get through in both directions: the device's SNDCP entity is new, the network's sends with any N201-U of the
standard its LLC grants. -/
def PacketsFlow (s : Device) (t sapi nsapi : Nat) : Prop :=
  ∀ net, NetKnows net t sapi → ∀ ns, Npdus ns → ∀ prio,
    (∀ rx, ∃ frames, (⟨t, sapi, prio, snNew nsapi sapi, s.llc, net, rx⟩ : Path).send ns = .ok frames ∧
      (⟨t, sapi, prio, snNew nsapi sapi, s.llc, net, rx⟩ : Path).receive frames = .ok ns) ∧
    ∀ tx : Sndcp.TxEnt, tx.nsapi = nsapi → tx.txNpdu < 4096 → 140 ≤ tx.n201u →
      (∀ i m, net.find t = some i → net.llmes[i]? = some m → tx.n201u ≤ (m.lle sapi).params.n201u) →
      ∃ frames, (⟨t, sapi, prio, tx, net, s.llc, {}⟩ : Path).send ns = .ok frames ∧
        (⟨t, sapi, prio, tx, net, s.llc, {}⟩ : Path).receive frames = .ok ns

/-- The device is switched on and its user asks for a PDP context, which makes it attach; the network accepts the
mobile station with a new P-TMSI and then the PDP context.  The request for the PDP context leaves under the new TLLI,
the user is told that the PDP context is active, and packets get through. -/
def ServesPackets (cfg : GmmCfg) (who : Nat → Ident) (r : ActReq) (draws : List Nat) (result timer prio : UInt8) (ra : Octets)
    (q : Nat) (sapi rp : UInt8) (qos : Octets) : Prop :=
  ∃ s1 s2 s3 t1 t2 t3 l e2 e3, devEv cfg who dev0 (.sg (.actReq r draws)) =
      some (s1, t1, [.down false (foreignTlli r.ptmsi) 1 1 (uiFrame false 1 0 (0x08 :: l))]) ∧
    devFrame cfg who s1 (foreignTlli r.ptmsi) (uiFrame true 1 0 (acceptMsg result timer prio ra (some q))) = some (s2, t2, e2) ∧
    (∃ nu b, .down false (localTlli q) 1 1 (uiFrame false 1 nu b) ∈ e2 ∧ IsActReq r.nsapi b) ∧
    devFrame cfg who s2 (localTlli q) (uiFrame true 1 1 (actAccMsg sapi rp qos)) = some (s3, t3, e3) ∧
    (∃ pco addr p k ph, (PhOut.sg (.sm (.actAcc r.msId r.nsapi pco addr p k)), ph) ∈ t3) ∧
    Carries s3.ph (localTlli q) sapi.toNat r.nsapi ∧ PacketsFlow s3 (localTlli q) sapi.toNat r.nsapi

/-- What the C structures of a request can hold, and what the network's answers look like. -/
structure Usual (who : Nat → Ident) (r : ActReq) (ra : Octets) (q : Nat) (sapi : UInt8) (qos : Octets) : Prop where
  req : ActReqOk r
  addr : (specAddr r.addr).Expressible
  apn : r.apn.length ≤ 99
  own : (who r.msId).ra.length = 6
  ra : ra.length = 6
  ptmsi : 0xc0000000 ≤ q ∧ q < 0xffffffff
  sapi : sapi.toNat = 3 ∨ sapi.toNat = 5 ∨ sapi.toNat = 9 ∨ sapi.toNat = 11
  qos : qos.length ≤ 22

/-- **C169**, full statement. -/
def C169Statement : Prop :=
  ∀ cfg (who : Nat → Ident) r draws result timer prio ra q (sapi rp : UInt8) qos, Usual who r ra q sapi qos →
    ServesPackets cfg who r draws result timer prio ra q sapi rp qos

/-! ## A request that is too long -/

/-- A request with everything a user can ask for. -/
def longReq : ActReq := { sgReq 0 5 0xc0000001 with
  addr := ⟨0x8d, some (List.replicate 4 1), some (List.replicate 16 2)⟩, qos := List.replicate 20 0
  apn := List.replicate 49 0x61 ++ 0x2e :: List.replicate 49 0x61, pco := List.replicate 253 0 }

/-- **C169 is violated**: the request for the PDP context can have 405 octets, LLC takes no more than 400 on SAPI 1 and
refuses it. -/
theorem c169_violated : ¬ C169Statement := by
  intro h
  obtain ⟨s1, s2, s3, t1, t2, t3, l, e2, e3, h1, h2, -⟩ := h defaultCfg sgWho longReq [] 1 0x4a 4 [0x62, 0xf2, 0x20, 0, 1, 0]
    0xc0000005 3 4 [0, 0, 0] ⟨⟨by decide, by decide, by decide +kernel, by decide⟩,
      ⟨by decide, fun x hx => (by injection hx with hx; subst hx; rfl), fun x hx => (by injection hx with hx; subst hx; rfl)⟩,
      by decide, rfl, rfl, by decide, by decide, by decide⟩
  have hx : ((devEv defaultCfg sgWho dev0 (.sg (.actReq longReq []))).map fun x =>
      (devFrame defaultCfg sgWho x.1 (foreignTlli longReq.ptmsi) (uiFrame true 1 0
        (acceptMsg 1 0x4a 4 [0x62, 0xf2, 0x20, 0, 1, 0] (some 0xc0000005)))).isSome) = some false := by decide +kernel
  rw [h1] at hx
  injection hx with hx
  dsimp only at hx
  rw [h2] at hx
  cases hx

/-! ## LLC with one mobile station -/

/-- LLC knows one TLLI.  On SAPI 1, `vs` is the next number to send and `vr` the next expected; the other SAPIs are as
new. -/
structure OneLlme (c : Llc.Ctx) (t old vs vr : Nat) : Prop where
  loc : c.loc = .ms
  one : ∃ m : Llc.Llme, c.llmes = [m] ∧ m.tlli = t ∧ m.oldTlli = old ∧ m.suspended = false ∧
    (m.lle 1).sapi = 1 ∧ (m.lle 1).params.n201u = 400 ∧ (m.lle 1).vuSend = vs ∧ (m.lle 1).vuRecv = vr ∧
    ∀ s, s ≠ 1 → m.lle s = Llc.Lle.init s

theorem llme_find {c : Llc.Ctx} {m : Llc.Llme} {t : Nat} (h : c.llmes = [m]) (ht : m.tlli = t) : c.find t = some 0 := by
  unfold Llc.Ctx.find
  rw [h]
  simp [ht]

theorem llc_first {b : Octets} {t : Nat} (hb : b.length ≤ 400) :
    ((Llc.Ctx.init .ms).step (.unitdataReq t 1 1 b)).rc = .ok () ∧
    ((Llc.Ctx.init .ms).step (.unitdataReq t 1 1 b)).out = [.down false t 1 1 (uiFrame false 1 0 b)] ∧
    OneLlme ((Llc.Ctx.init .ms).step (.unitdataReq t 1 1 b)).ctx t 0xffffffff 1 0 := by
  have htx : (Llc.Lle.init 1).txUi .ms t 1 b = { lle := { Llc.Lle.init 1 with vuSend := 1 }, out := [.down false t 1 1 (uiFrame false 1 0 b)] } := by
    unfold Llc.Lle.txUi
    rw [if_neg (by show ¬ b.length > 400; omega), show (Llc.Lle.init 1).sapi = 1 from rfl, show (Llc.Lle.init 1).vuSend = 0 from rfl,
      Llc.encode_ui 1 0 _ b (by omega) (by omega)]
    rfl
  have hst : (Llc.Ctx.init .ms).step (.unitdataReq t 1 1 b) =
      { ctx := { loc := .ms, llmes := [(Llc.Llme.alloc t).setLle 1 { Llc.Lle.init 1 with vuSend := 1 }] }
        out := [.down false t 1 1 (uiFrame false 1 0 b)] } := by
    show (((Llc.Ctx.init .ms).alloc t).onLle 0 1 (fun m l => if m.suspended ∧ 1 ≠ 1 then { lle := l } else l.txUi .ms m.tlli 1 b)) = _
    unfold Llc.Ctx.onLle
    rw [if_neg (by omega)]
    show Llc.CtxRes.mk _ _ _ = _
    simp only [Llc.Ctx.alloc, Llc.Ctx.init, ne_eq, not_true_eq_false, and_false, if_false]
    rw [show (Llc.Llme.alloc t).lle 1 = Llc.Lle.init 1 from rfl, show (Llc.Llme.alloc t).tlli = t from rfl, htx]
    rfl
  rw [hst]
  refine ⟨rfl, rfl, rfl, _, rfl, rfl, rfl, rfl, rfl, rfl, rfl, rfl, fun s hs => ?_⟩
  show (if s = 1 then _ else Llc.Lle.init s) = _
  rw [if_neg hs]

theorem llc_tx {c : Llc.Ctx} {t old vs vr : Nat} {b : Octets} (h : OneLlme c t old vs vr) (hv : vs < 511)
    (hb : b.length ≤ 400) : (c.step (.unitdataReq t 1 1 b)).rc = .ok () ∧
    (c.step (.unitdataReq t 1 1 b)).out = [.down false t 1 1 (uiFrame false 1 vs b)] ∧
    OneLlme (c.step (.unitdataReq t 1 1 b)).ctx t old (vs + 1) vr := by
  obtain ⟨hl, m, h1, h2, h3, h4, h5, h6, h7, h8, h9⟩ := h
  have htx : ∃ l, (m.lle 1).txUi c.loc t 1 b = { lle := l, out := [.down false t 1 1 (uiFrame false 1 vs b)] } ∧
      l.sapi = 1 ∧ l.params = (m.lle 1).params ∧ l.vuSend = vs + 1 ∧ l.vuRecv = vr := by
    unfold Llc.Lle.txUi
    rw [if_neg (by omega), h5, h7, hl, show Llc.encodeCr .ms false = false from rfl,
      Llc.encode_ui 1 vs _ b (by omega) (by omega)]
    exact ⟨_, rfl, rfl, rfl, Nat.mod_eq_of_lt (by omega), h8⟩
  obtain ⟨l, e, l1, l2, l3, l4⟩ := htx
  have hst : c.step (.unitdataReq t 1 1 b) = { ctx := { c with llmes := [m.setLle 1 l] }
                                               out := [.down false t 1 1 (uiFrame false 1 vs b)] } := by
    simp [Llc.Ctx.step, Llc.Ctx.unitdataReq, llme_find h1 h2, Llc.Ctx.onLle, h1, h2, e]
  rw [hst]
  refine ⟨rfl, rfl, hl, _, rfl, h2, h3, h4, ?_, ?_, ?_, ?_, fun s hs => ?_⟩
  · show (if 1 = 1 then l else m.lle 1).sapi = 1; exact l1
  · show (if 1 = 1 then l else m.lle 1).params.n201u = 400; rw [if_pos rfl, l2]; exact h6
  · show (if 1 = 1 then l else m.lle 1).vuSend = _; exact l3
  · show (if 1 = 1 then l else m.lle 1).vuRecv = _; exact l4
  · show (if s = 1 then l else m.lle s) = _
    rw [if_neg hs]; exact h9 s hs

theorem llc_rx {c : Llc.Ctx} {t old vs vr : Nat} {b : Octets} (h : OneLlme c t old vs vr) (hv : vr < 511)
    (ht : Llc.tlliTypeOk t = true) (hb : 0 < b.length ∧ b.length ≤ 1520) :
    (c.step (.rxPdu t (uiFrame true 1 vr b))).out = [.unitdataInd t 1 b] ∧
    OneLlme (c.step (.rxPdu t (uiFrame true 1 vr b))).ctx t old vs (vr + 1) := by
  obtain ⟨hl, m, h1, h2, h3, h4, h5, h6, h7, h8, h9⟩ := h
  obtain ⟨p, q1, q2, q3, q4, q5, q6, q7⟩ := uiFrame_rx (cr := true) (data := b) (sapi := 1) (nu := vr) (by decide) (by omega) (by omega)
  obtain ⟨a1, a2⟩ := accept_inorder (m.lle 1) vr (by omega) h8
  obtain ⟨l, hlr⟩ : ∃ l, l = ((m.lle 1).acceptUi vr).1 := ⟨_, rfl⟩
  have hacc : (m.lle 1).acceptUi p.seqTx = (l, true) := by
    rw [q5, hlr]; exact Prod.ext rfl a1
  have hk : l.sapi = (m.lle 1).sapi ∧ l.params = (m.lle 1).params ∧ l.vuSend = (m.lle 1).vuSend := by
    rw [hlr]
    unfold Llc.Lle.acceptUi
    dsimp only
    (repeat' split) <;> exact ⟨rfl, rfl, rfl⟩
  have hdel : Llc.deliverUi t 1 b = ([.unitdataInd t 1 b], .ok ()) := by
    unfold Llc.deliverUi
    rw [if_neg (by omega)]; rfl
  have hst : c.step (.rxPdu t (uiFrame true 1 vr b)) = { ctx := { c with llmes := [m.setLle 1 l] }, out := [.unitdataInd t 1 b] } := by
    simp only [Llc.Ctx.step, Llc.Ctx.rxPdu, q1, ht, Bool.not_true, Bool.false_eq_true, if_false,
      Llc.Ctx.lleForRx, llme_find h1 h2, q4, Llc.Ctx.onLle, h1, List.getElem?_cons_zero, h2, Llc.Lle.rx, q6, q2, q3, hacc, q7, hdel]
    rfl
  rw [hst]
  refine ⟨rfl, hl, _, rfl, h2, h3, h4, ?_, ?_, ?_, ?_, fun s hs => ?_⟩
  · show (if 1 = 1 then l else m.lle 1).sapi = 1; rw [if_pos rfl, hk.1]; exact h5
  · show (if 1 = 1 then l else m.lle 1).params.n201u = 400; rw [if_pos rfl, hk.2.1]; exact h6
  · show (if 1 = 1 then l else m.lle 1).vuSend = _; rw [if_pos rfl, hk.2.2]; exact h7
  · show (if 1 = 1 then l else m.lle 1).vuRecv = _
    rw [if_pos rfl, hlr, a2]
    exact Nat.mod_eq_of_lt (by omega)
  · show (if s = 1 then l else m.lle s) = _
    rw [if_neg hs]; exact h9 s hs

theorem llc_assign {c : Llc.Ctx} {t old new vs vr : Nat} (h : OneLlme c t old vs vr) (ht : t ≠ 0xffffffff)
    (hn : new ≠ 0xffffffff) : (c.step (.assignReq t new)).rc = .ok () ∧ OneLlme (c.step (.assignReq t new)).ctx new t vs vr := by
  obtain ⟨hl, m, h1, h2, h3, h4, h5, h6, h7, h8, h9⟩ := h
  have hst : (c.step (.assignReq t new)).ctx = { c with llmes := [{ m with oldTlli := t, tlli := new }] } ∧
      (c.step (.assignReq t new)).rc = .ok () := by
    have ht' : t ≠ Llc.tlliUnassigned := ht
    have hn' : new ≠ Llc.tlliUnassigned := hn
    have ha : m.assign t new = some { m with oldTlli := t, tlli := new } := by
      unfold Llc.Llme.assign; rw [if_neg ht', if_pos hn']
    simp [Llc.Ctx.step, Llc.Ctx.assignReq, ht', llme_find h1 h2, h1, ha]
  rw [hst.1]
  exact ⟨hst.2, hl, _, rfl, rfl, rfl, h4, h5, h6, h7, h8, h9⟩

/-! ## The device -/

theorem packets_flow {s : Device} {t old vs vr : Nat} {sapi nsapi : Nat} (h : OneLlme s.llc t old vs vr)
    (hs : sapi = 3 ∨ sapi = 5 ∨ sapi = 9 ∨ sapi = 11) (ht : Llc.tlliTypeOk t = true) (hn : nsapi < 16) :
    PacketsFlow s t sapi nsapi := by
  obtain ⟨hl, m, h1, h2, h3, h4, h5, h6, h7, h8, h9⟩ := h
  have hl : m.lle sapi = Llc.Lle.init sapi := h9 sapi (by omega)
  have hm : s.llc.llmes[0]? = some m := by rw [h1]; rfl
  have hu : UserSapi sapi := by unfold UserSapi; omega
  have hp : (Llc.Lle.init sapi).params.n201u = 500 ∧ snN201u sapi = 500 := by
    rcases hs with rfl | rfl | rfl | rfl <;> exact ⟨rfl, rfl⟩
  rintro net ⟨i, mn, n1, n2, n3, n4, n5, n6, n7⟩ ns hns prio
  refine ⟨fun rx => ?_, fun tx x1 x2 x3 x4 => ?_⟩
  · obtain ⟨f, f1, -, f2, -⟩ := upper_path (p := ⟨t, sapi, prio, snNew nsapi sapi, s.llc, net, rx⟩) (ns := ns)
      ⟨hu, ht, ⟨0, i, m, mn, llme_find h1 h2, hm, n1, n2, by simp only [hl]; rfl, h4, by simp only [hl]; exact (by decide : 0 < 512),
        by simp only [hl]; exact n6, by simp only [hl, hp.1]; omega, by simp only [hl, hp.1, snNew, hp.2]; omega⟩,
        by simp only [snNew, hp.2]; exact ⟨by decide, by decide⟩, hn, (by decide : 0 < 4096)⟩ hns
    exact ⟨f, f1, f2⟩
  · have hle := x4 i mn n1 n2
    obtain ⟨f, f1, -, f2, -⟩ := upper_path (p := ⟨t, sapi, prio, tx, net, s.llc, {}⟩) (ns := ns)
      ⟨hu, ht, ⟨i, 0, mn, m, n1, n2, llme_find h1 h2, hm, n3, n4, by simp only [n5]; decide,
        by simp only [hl, n5]; rfl, n7, hle⟩, ⟨x3, Nat.le_trans hle n7⟩, by simp only [x1]; exact hn, x2⟩ hns
    exact ⟨f, f1, f2⟩

theorem gmmOuts_map (l : List (List Nat × GmmOut)) (p : Phone) :
    gmmOuts (l.map fun x => (.sg (.gmm x.1 x.2), p)) = l.map Prod.snd := by
  unfold gmmOuts
  induction l with
  | nil => rfl
  | cons x l ih => simp only [List.map_cons, List.filterMap_cons, ih]

theorem llcTake_none {c : Llc.Ctx} {o : GmmOut} {l : List GmmOut} (h : llcOpOf o = none) :
    llcTake noneRefuses c (o :: l) = llcTake noneRefuses c l := by
  rw [llcTake, h]

theorem llcTake_ok {c : Llc.Ctx} {o : GmmOut} {l : List GmmOut} {op : Llc.Op} (h : llcOpOf o = some op)
    (hrc : (c.step op).rc = .ok ()) : llcTake noneRefuses c (o :: l) =
      (llcTake noneRefuses (c.step op).ctx l).map fun r => (r.1, (c.step op).out ++ r.2) := by
  rw [llcTake, h]
  dsimp only
  rw [hrc, if_pos (show noneRefuses o = accepted (.ok ()) from rfl)]

theorem devFrame_rx {cfg : GmmCfg} {who : Nat → Ident} {s : Device} {t old vs vr : Nat} {b : Octets}
    (h : OneLlme s.llc t old vs vr) (hv : vr < 511) (ht : Llc.tlliTypeOk t = true) (hb : 0 < b.length ∧ b.length ≤ 1520) :
    ∃ c, OneLlme c t old vs (vr + 1) ∧
      devFrame cfg who s t (uiFrame true 1 vr b) = devEv cfg who ⟨s.ph, c⟩ (.sg (.gmm (.rx t b))) := by
  obtain ⟨h1, h2⟩ := llc_rx h hv ht hb
  refine ⟨_, h2, ?_⟩
  unfold devFrame
  rw [h1]
  rfl

theorem actReq_length {s : Sme} (h : (specAddr s.addr).Expressible) :
    (buildActReq s).length ≤ 33 + s.qosLen + s.apn.length + s.pco.length := by
  have h1 := encAddr_length s.addr h
  have h2 : (apnEnc s.apn).length = s.apn.length + 1 := by
    unfold apnEnc
    rw [apnEncGo_length]
    simp
  unfold buildActReq
  simp only [List.length_append, List.length_cons, List.length_nil, List.length_take]
  split <;> split <;> simp only [List.length_cons, List.length_nil] <;> omega

theorem typeOk_foreign (p : Nat) : Llc.tlliTypeOk (foreignTlli p) = true ∧ foreignTlli p ≠ 0xffffffff := by
  unfold Llc.tlliTypeOk foreignTlli
  constructor
  · apply decide_eq_true; omega
  · omega

theorem typeOk_local {p : Nat} (h : 0xc0000000 ≤ p ∧ p < 0xffffffff) :
    Llc.tlliTypeOk (localTlli p) = true ∧ localTlli p ≠ 0xffffffff := by
  unfold Llc.tlliTypeOk localTlli
  constructor
  · apply decide_eq_true; omega
  · omega

theorem accept_length {result timer prio : UInt8} {ra : Octets} {q : Nat} (h : ra.length = 6) :
    0 < (acceptMsg result timer prio ra (some q)).length ∧ (acceptMsg result timer prio ra (some q)).length ≤ 1520 := by
  unfold acceptMsg
  simp only [List.length_append, List.length_cons, List.length_nil, show (be32 q).length = 4 from rfl]
  omega

/-- **C169** (partial; missing: mobile stations other than 0, see C163; requests whose QoS profile has a length SNDCP
does not know, see C168; requests longer than LLC takes).  From switching on to packets in both directions. -/
theorem c169_partial (cfg : GmmCfg) (who : Nat → Ident) (r : ActReq) (draws : List Nat) (result timer prio : UInt8)
    (ra : Octets) (q : Nat) (sapi rp : UInt8) (qos : Octets) (hu : Usual who r ra q sapi qos) (hid : r.msId = 0)
    (hlen : QosLen r.qos.length) (hfit : r.qos.length + r.apn.length + r.pco.length ≤ 367) :
    ServesPackets cfg who r draws result timer prio ra q sapi rp qos := by
  have hsapi : sapi.toNat < 16 := by have := hu.sapi; omega
  obtain ⟨p1, p2, p3, b0, a, b, m0, s1, ls, rfl, f1, f2, hls, ⟨gea, kc, rfl⟩, hb, k1, k2, k3, k4, k5, k6, k7, ⟨l0, rfl⟩, k8,
    pco, addr, pr, k, f3, hc, -⟩ := ph_activation cfg who r draws result timer prio ra q sapi rp qos hu.req hu.ra hu.ptmsi.2
      hsapi hu.qos hlen
  obtain ⟨tf1, tf2⟩ := typeOk_foreign r.ptmsi
  obtain ⟨tl1, tl2⟩ := typeOk_local hu.ptmsi
  have hF : ∃ F, F = foreignTlli r.ptmsi := ⟨_, rfl⟩
  have hL : ∃ L, L = localTlli q := ⟨_, rfl⟩
  obtain ⟨F, hF⟩ := hF
  obtain ⟨L, hL⟩ := hL
  unfold ServesPackets
  rw [← hF] at f1 f2 tf1 tf2 ⊢
  rw [← hL] at hls tl1 tl2 f3 hc ⊢
  rw [← hF] at hls
  have hreq : (buildActReq s1).length ≤ 400 := by
    have := actReq_length (s := s1) (by rw [k7]; exact hu.addr)
    rw [k4, k6, k3] at this
    omega
  obtain ⟨a1, a2, a3⟩ := llc_first (t := F) (b := 0x08 :: l0) (Nat.le_trans (k8 hu.own) (by decide))
  obtain ⟨c1, hc1⟩ : ∃ c, c = ((Llc.Ctx.init .ms).step (.unitdataReq F 1 1 (0x08 :: l0))).ctx := ⟨_, rfl⟩
  have g1 : devEv cfg who dev0 (.sg (.actReq r draws)) =
      some (⟨p1, c1⟩, [(.sg (.gmm (who r.msId).imsi (.llUnitdata F (0x08 :: l0))), p1)], [.down false F 1 1 (uiFrame false 1 0 (0x08 :: l0))]) := by
    unfold devEv
    show (match phStep cfg who yes ph0 (.sg (.actReq r draws)) with | .ok r => _ | _ => none) = _
    rw [f1]
    show Option.map _ (llcTake noneRefuses (Llc.Ctx.init .ms) [.llUnitdata F (0x08 :: l0)]) = _
    rw [llcTake_ok rfl a1, a2, hc1]
    rfl
  rw [← hc1] at a3
  -- ATTACH ACCEPT
  obtain ⟨c2, b1, b2⟩ := devFrame_rx (cfg := cfg) (who := who) (s := ⟨p1, c1⟩) (b := acceptMsg result timer prio ra (some q))
    a3 (by decide) tf1 (accept_length hu.ra)
  obtain ⟨d1, d2⟩ := llc_assign b1 tf2 tl2
  obtain ⟨c3, hc3⟩ : ∃ c, c = (c2.step (.assignReq F L)).ctx := ⟨_, rfl⟩
  rw [← hc3] at d2
  obtain ⟨x1, x2, x3⟩ := llc_tx (b := attachCompl) d2 (by decide) (by decide)
  obtain ⟨c4, hc4⟩ : ∃ c, c = (c3.step (.unitdataReq L 1 1 attachCompl)).ctx := ⟨_, rfl⟩
  rw [← hc4] at x3
  obtain ⟨y1, y2, y3⟩ := llc_tx (b := buildActReq s1) x3 (by decide) hreq
  obtain ⟨c5, hc5⟩ : ∃ c, c = (c4.step (.unitdataReq L 1 1 (buildActReq s1))).ctx := ⟨_, rfl⟩
  rw [← hc5] at y3
  have g2 : devFrame cfg who ⟨p1, c1⟩ F (uiFrame true 1 0 (acceptMsg result timer prio ra (some q))) =
      some (⟨p2, c5⟩, ls.map (fun x => (.sg (.gmm x.1 x.2), p2)), (c2.step (.assignReq F L)).out ++ ([.down false L 1 1 (uiFrame false 1 1 attachCompl)] ++
        ([.down false L 1 1 (uiFrame false 1 2 (buildActReq s1))] ++ []))) := by
    rw [b2]
    unfold devEv
    show (match phStep cfg who yes p1 (.sg (.gmm (.rx F (acceptMsg result timer prio ra (some q))))) with | .ok r => _ | _ => none) = _
    rw [f2]
    dsimp only
    rw [gmmOuts_map, hls, hid, if_pos rfl]
    show Option.map _ (llcTake noneRefuses c2 [.llgmmAssign F L gea kc, b, .llUnitdata L attachCompl, .llUnitdata L (buildActReq s1)]) = _
    rw [llcTake_ok (op := .assignReq F L) rfl d1, llcTake_none hb, ← hc3,
      llcTake_ok (op := .unitdataReq L 1 1 attachCompl) rfl x1, ← hc4,
      llcTake_ok (op := .unitdataReq L 1 1 (buildActReq s1)) rfl y1, ← hc5, x2, y2]
    rfl
  obtain ⟨c6, z1, z2⟩ := devFrame_rx (cfg := cfg) (who := who) (s := ⟨p2, c5⟩) (b := actAccMsg sapi rp qos)
    y3 (by decide) tl1 (by
      have := hu.qos
      unfold actAccMsg
      simp only [List.length_append, List.length_cons, List.length_nil]
      omega)
  have g3 : devFrame cfg who ⟨p2, c5⟩ L (uiFrame true 1 1 (actAccMsg sapi rp qos)) =
      some (⟨p3, c6⟩, [(.sg (.sm (.actAcc r.msId r.nsapi pco addr pr k)), p3)], []) := by
    rw [z2]
    unfold devEv
    show (match phStep cfg who yes p2 (.sg (.gmm (.rx L (actAccMsg sapi rp qos)))) with | .ok r => _ | _ => none) = _
    rw [f3]
    rfl
  refine ⟨_, _, _, _, _, _, l0, _, _, g1, g2, ⟨2, _, ?_, k2 ▸ isActReq_build k1⟩, g3, ⟨pco, addr, pr, k, p3, List.mem_cons_self⟩, hc,
    packets_flow z1 hu.sapi tl1 (by have := hu.req.nsapi; omega)⟩
  simp

/-- The hypotheses are met by a request with an access point name and protocol configuration options. -/
example : let r : ActReq := { sgReq 0 5 0xc0000001 with apn := [0x69, 0x2e, 0x6a], pco := [0x80] }
    Usual sgWho r [0x62, 0xf2, 0x20, 0, 1, 0] 0xc0000005 3 [0, 0, 0] ∧ r.msId = 0 ∧ QosLen r.qos.length ∧
      r.qos.length + r.apn.length + r.pco.length ≤ 367 :=
  ⟨⟨⟨by decide, by decide, by decide, by decide⟩, ⟨by decide, fun x hx => (by cases hx), fun x hx => (by cases hx)⟩, by decide,
    rfl, rfl, by decide, by decide, by decide⟩, rfl, Or.inl rfl, by decide⟩

/-- A network that has got a message of the mobile station and has assigned the TLLI. -/
example : NetKnows (((Llc.Ctx.init .sgsn).step (.rxPdu 0x80000001 (uiFrame false 1 0 [8, 1]))).ctx.step
    (.assignReq 0x80000001 0xc0000005)).ctx 0xc0000005 3 :=
  ⟨0, _, by decide +kernel, rfl, by decide +kernel, by decide +kernel, by decide +kernel, by decide +kernel, by decide +kernel⟩

end Verif.Props
