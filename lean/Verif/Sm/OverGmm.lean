import Verif.Sm.Entity
import Verif.Gmm.Layer
/-!
# Session management on top of GMM

The SM layer and the GMM layer of one device.  The code that hands the primitives of one layer to the other is
not part of /repo; it is taken to pass the GMMSM primitives on as they are, at once, and to return the result.
The identities the user gives for a mobile station (IMSI, IMEI and routing area) are taken to be always the
same ones.
-/
namespace Verif.Sm
open Verif

/-- The two layers. -/
structure SmGmm where
  sm  : SmCtx
  gmm : Gmm.GmmLayer

/-- What leaves the two layers: GMM's primitives to LLC, RLC/MAC and the GMMREG user with the mobile station
they come from, and SM's primitives to the SMREG user and to SNDCP. -/
inductive SgOut where
  | gmm (imsi : List Nat) (o : Gmm.GmmOut)
  | sm (o : SmOut)
  deriving DecidableEq, Repr

/-- The identities of a mobile station, sm_private.h:124-130. -/
structure Ident where
  imsi   : List Nat
  imei   : List Nat
  imeisv : List Nat
  ra     : Octets

/-- The two octets of the PDP context status, gmm.c:513-515 and sm_prim.c:599-600. -/
def statusOf : Octets → Nat
  | [a, b] => a.toNat + 256 * b.toNat
  | _ => 0

/-- The GMMSM primitives SM gets from GMM, sm_prim.c:611-640. -/
def smInOf : Gmm.GmmOut → Option SmIn
  | .estAcc sess ptmsi sig tlli _ => some (.estAcc sess ptmsi sig tlli)
  | .estRej sess _ => some (.estRej sess)
  | .releaseInd sess => some (.relInd sess)
  | .modifyInd sess ptmsi sig tlli _ st _ _ => some (.modifyInd sess ptmsi sig tlli (st.map statusOf))
  | .smUnitdataInd sess pdu => some (.unitdataInd sess pdu)
  | _ => none

/-- Whether SM accepts a primitive. -/
def smAccepts (c : SmCtx) (e : SmIn) : Bool :=
  match smStep c e with
  | .ok (_, _, rc) => rc.isNone
  | _ => false

/-- The answers GMM gets: SM's, and those of its other neighbours. -/
def sgOk (c : SmCtx) (ok : Gmm.GmmOut → Bool) (o : Gmm.GmmOut) : Bool :=
  match smInOf o with
  | some e => smAccepts c e
  | none => ok o

/-- What the entities of GMM handed out during an event. -/
def sgSeen (r : Gmm.LayerStep) : List (List Nat × Gmm.GmmOut) :=
  r.seen.flatMap fun x => x.obs.out.map fun o => (x.imsi, o)

/-- Pass primitives on one after the other. -/
def sgFold {α : Type} (f : SmGmm → α → Res (SmGmm × List SgOut)) : SmGmm → List α → Res (SmGmm × List SgOut)
  | s, [] => .ok (s, [])
  | s, x :: l => do
    let r ← f s x
    let t ← sgFold f r.1 l
    .ok (t.1, r.2 ++ t.2)

/-- GMMSM-UNITDATA.req is passed on to GMM, which hands nothing back to SM meanwhile; all other primitives leave
the two layers. -/
def sgData (cfg : Gmm.GmmCfg) (ok : Gmm.GmmOut → Bool) (s : SmGmm) (o : SmOut) : Res (SmGmm × List SgOut) :=
  match o with
  | .unitdataReq sess pdu => do
    let r ← Gmm.layerStep cfg (sgOk s.sm ok) s.gmm (.smUnitdataReq sess pdu)
    .ok (⟨s.sm, r.layer⟩, (sgSeen r).map fun x => .gmm x.1 x.2)
  | o => .ok (s, [.sm o])

/-- A primitive of GMM: SM handles it if it is one of the GMMSM primitives.  SM answers with
GMMSM-UNITDATA.req at most (`sm_ms_fsm.c:68-73`: GMMSM-ESTABLISH.req is caused by the user and by T3380
only). -/
def sgUp (cfg : Gmm.GmmCfg) (ok : Gmm.GmmOut → Bool) (s : SmGmm) (x : List Nat × Gmm.GmmOut) :
    Res (SmGmm × List SgOut) :=
  match smInOf x.2 with
  | none => .ok (s, [.gmm x.1 x.2])
  | some e => do
    let r ← smStep s.sm e
    sgFold (sgData cfg ok) ⟨r.1, s.gmm⟩ r.2.1

/-- The fields of GMMSM-ESTABLISH.req, sm.c:186-204: a GPRS attach (1). -/
def estPrm (who : Ident) (sig : Nat) (withImsi : Bool) : Gmm.AttachPrm :=
  ⟨1, withImsi, sig, who.imei, who.imeisv, who.ra⟩

/-- A primitive SM hands out because of the user or a timer: `who` is the mobile station, `draws` are the
random numbers GMM gets. -/
def sgDown (cfg : Gmm.GmmCfg) (ok : Gmm.GmmOut → Bool) (who : Ident) (draws : List Nat) (s : SmGmm) (o : SmOut) :
    Res (SmGmm × List SgOut) :=
  match o with
  | .establishReq sess ptmsi sig withImsi => do
    let r ← Gmm.layerStep cfg (sgOk s.sm ok) s.gmm
      (.establishReq sess ptmsi who.imsi draws (estPrm who sig withImsi))
    sgFold (sgUp cfg ok) ⟨s.sm, r.layer⟩ (sgSeen r)
  | o => sgData cfg ok s o

/-- What happens to the two layers from outside. -/
inductive SgEv where
  /-- SMREG-PDP-ACTIVATE.req -/
  | actReq (r : ActReq) (draws : List Nat)
  /-- the timer of a PDP context -/
  | timeout (msId nsapi : Nat) (draws : List Nat)
  /-- SNSM-ACTIVATE.rsp -/
  | snsmActRsp (tlli nsapi : Nat)
  /-- SNSM-DEACTIVATE.rsp -/
  | snsmDeactRsp (tlli nsapi : Nat)
  /-- an event at GMM -/
  | gmm (ev : Gmm.LayerEv)

/-- An event at SM. -/
def sgSm (cfg : Gmm.GmmCfg) (ok : Gmm.GmmOut → Bool) (who : Ident) (draws : List Nat) (s : SmGmm) (e : SmIn) :
    Res (SmGmm × List SgOut) := do
  let r ← smStep s.sm e
  sgFold (sgDown cfg ok who draws) ⟨r.1, s.gmm⟩ r.2.1

/-- One event from outside until everything it causes in the two layers has been done. -/
def sgStep (cfg : Gmm.GmmCfg) (who : Nat → Ident) (ok : Gmm.GmmOut → Bool) (s : SmGmm) :
    SgEv → Res (SmGmm × List SgOut)
  | .actReq r draws => sgSm cfg ok (who r.msId) draws s (.actReq r)
  | .timeout id n draws => sgSm cfg ok (who id) draws s (.timeout id n)
  | .snsmActRsp t n => sgSm cfg ok (who 0) [] s (.snsmActRsp t n)
  | .snsmDeactRsp t n => sgSm cfg ok (who 0) [] s (.snsmDeactRsp t n)
  | .gmm ev => do
    let r ← Gmm.layerStep cfg (sgOk s.sm ok) s.gmm ev
    sgFold (sgUp cfg ok) ⟨s.sm, r.layer⟩ (sgSeen r)

/-- An event that comes from outside: not one of the primitives SM gives to GMM. -/
def SgEv.Outside : SgEv → Prop
  | .gmm (.establishReq _ _ _ _ _) => False
  | .gmm (.smUnitdataReq _ _) => False
  | _ => True

/-- A history: where it ends and what was handed out. -/
def sgRun (cfg : Gmm.GmmCfg) (who : Nat → Ident) (ok : Gmm.GmmOut → Bool) : SmGmm → List SgEv →
    Res (SmGmm × List SgOut)
  | s, [] => .ok (s, [])
  | s, e :: l => do
    let r ← sgStep cfg who ok s e
    let t ← sgRun cfg who ok r.1 l
    .ok (t.1, r.2 ++ t.2)

/-- Both layers after they have been initialised, GPRS switched on. -/
def sg0 : SmGmm := ⟨smInit, ⟨true, []⟩⟩

end Verif.Sm
