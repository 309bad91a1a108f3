import Verif.Gmm.Closed
/-!
# GMM: several mobile stations

The list of entities of the layer, the lookups by which a primitive finds the one it is for, and the creation
of entities.  Entities are never freed while the layer is in use (`gprs_gmm_gmme_free` is called by
`gprs_gmm_ctx_free` only).
-/
namespace Verif.Gmm
open Verif Verif.Gsm

/-- `struct gprs_gmm_ctx`, gmm_private.h:30-48, without the callbacks: `gprs_enabled` and `gmme_list`, the
newest entity first (`llist_add`, gmm.c:192). -/
structure GmmLayer where
  enabled : Bool
  es      : List Gmme
  deriving DecidableEq, Repr

/-- After `osmo_gprs_gmm_init`, gmm.c:103-130. -/
def gmmLayer0 : GmmLayer := ⟨false, []⟩

/-- `gprs_gmm_find_gmme_by_ptmsi`, gmm.c:229-238: the place of the entity in the list. -/
def findPtmsi (es : List Gmme) (p : Nat) : Option Nat :=
  es.findIdx? fun g => decide (g.ptmsi = p ∨ g.oldPtmsi = p)

/-- `gprs_gmm_find_gmme_by_imsi`, gmm.c:240-249. -/
def findImsi (es : List Gmme) (i : List Nat) : Option Nat := es.findIdx? fun g => decide (g.imsi = i)

/-- `gprs_gmm_find_gmme_by_tlli`, gmm.c:251-260. -/
def findGmmTlli (es : List Gmme) (t : Nat) : Option Nat :=
  es.findIdx? fun g => decide (g.tlli = t ∨ g.oldTlli = t)

/-- `gprs_gmm_find_gmme_by_sess_id`, gmm.c:262-271. -/
def findSess (es : List Gmme) (s : Nat) : Option Nat := es.findIdx? fun g => decide (g.sess = s)

/-- The entity whose challenge GMMREG-SIM_AUTH.rsp answers, gmm_prim.c:549-560. -/
def findSim (es : List Gmme) (acRef keySeq : Nat) (rand : Octets) : Option Nat :=
  es.findIdx? fun g => simAuthMatches g acRef keySeq rand

/-- `gprs_gmm_alloc_rand_tlli`, gmm.c:273-308: `draws` are the numbers `osmo_get_rand_id` gives until it
fails or the retries are used up. -/
def randTlli (es : List Gmme) : List Nat → Nat
  | [] => tlliUnassigned
  | d :: ds => if (findGmmTlli es (d % 0x8000000 + 0x78000000)).isSome then randTlli es ds
    else d % 0x8000000 + 0x78000000

/-- What is seen of an event at the layer: the mobile station it concerned, and what was seen there. -/
structure LayerObs where
  imsi : List Nat
  obs  : GmmObs

/-- What an event left behind. -/
structure LayerStep where
  layer : GmmLayer
  seen  : List LayerObs
  rc    : Option Errno

/-- The event at the `k`th entity. -/
def stepAt (cfg : GmmCfg) (ok : GmmOut → Bool) (L : GmmLayer) (k : Nat) (ev : GmmEv) : Res LayerStep :=
  match L.es[k]? with
  | some g => do
    let r ← gmmStep cfg ok g ev
    .ok ⟨{ L with es := L.es.set k r.g }, [⟨g.imsi, ⟨ev, r.out, r.rc⟩⟩], r.rc⟩
  | none => .ok ⟨L, [], none⟩

/-- The event at the entity a lookup has found, or an error. -/
def stepFound (cfg : GmmCfg) (ok : GmmOut → Bool) (L : GmmLayer) (k : Option Nat) (e : Errno) (ev : GmmEv) :
    Res LayerStep :=
  match k with
  | some k => stepAt cfg ok L k ev
  | none => .ok ⟨L, [], some e⟩

/-- `gprs_gmm_gmme_find_or_create_by_ptmsi_imsi`, gmm.c:214-227, with `gprs_gmm_gmme_alloc`. -/
def findOrCreate (L : GmmLayer) (ptmsi : Nat) (imsi : List Nat) (draws : List Nat) : GmmLayer × Nat :=
  match (if ptmsi ≠ reservedTmsi then findPtmsi L.es ptmsi else none) with
  | some k => (L, k)
  | none =>
    match findImsi L.es imsi with
    | some k => (L, k)
    | none => ({ L with es := gmmeAlloc L.enabled ptmsi imsi (randTlli L.es draws) :: L.es }, 0)

/-- `osmo_gprs_gmm_enable_gprs` with a new value, for all entities, gmm.c:145-148. -/
def enableAll (cfg : GmmCfg) (ok : GmmOut → Bool) (on : Bool) : List Gmme → List Gmme × List LayerObs
  | [] => ([], [])
  | g :: es =>
    ((dispatch cfg ok g [] (if on then .enable else .disable)).g :: (enableAll cfg ok on es).1,
     ⟨g.imsi, ⟨.enable on, (dispatch cfg ok g [] (if on then .enable else .disable)).out,
        (dispatch cfg ok g [] (if on then .enable else .disable)).rc⟩⟩ :: (enableAll cfg ok on es).2)

/-- What happens to the layer. -/
inductive LayerEv where
  | enable (on : Bool)
  /-- GMMREG-ATTACH.req -/
  | attachReq (ptmsi : Nat) (imsi draws : List Nat) (p : AttachPrm)
  /-- GMMREG-DETACH.req -/
  | detachReq (ptmsi type : Nat) (poweroff : Bool)
  /-- GMMREG-SIM_AUTH.rsp -/
  | simAuthRsp (acRef keySeq : Nat) (rand sres kc : Octets)
  /-- GMMSM-ESTABLISH.req -/
  | establishReq (sess ptmsi : Nat) (imsi draws : List Nat) (p : AttachPrm)
  /-- GMMSM-UNITDATA.req -/
  | smUnitdataReq (sess : Nat) (pdu : Octets)
  /-- GMMRR-PAGE.ind -/
  | pageInd (tlli : Nat)
  /-- GMMRR-LLC_TRANSMITTED.ind -/
  | llcTransmitted (tlli : Nat)
  /-- LL-UNITDATA.ind -/
  | rx (tlli : Nat) (b : Octets)
  /-- T3310 or T3330 of the `k`th entity -/
  | fsmTimer (k : Nat)
  | t3314 (k : Nat)
  | t3312 (k : Nat)
  | t3316 (k : Nat)

/-- One event: gmm.c:132-149 and the lookups of gmm_prim.c:506, 528, 549-570, 615, 647, 739, 756, 923. -/
def layerStep (cfg : GmmCfg) (ok : GmmOut → Bool) (L : GmmLayer) : LayerEv → Res LayerStep
  | .enable on =>
    if L.enabled = on then .ok ⟨L, [], none⟩
    else .ok ⟨⟨on, (enableAll cfg ok on L.es).1⟩, (enableAll cfg ok on L.es).2, none⟩
  | .attachReq p i d prm =>
    stepAt cfg ok (findOrCreate L p i d).1 (findOrCreate L p i d).2 (.attachReq prm)
  | .detachReq p ty off => stepFound cfg ok L (findPtmsi L.es p) .einval (.detachReq ty off)
  | .simAuthRsp a k x sres kc =>
    stepFound cfg ok L (findSim L.es a k x) .einval (.simAuthRsp a k x sres kc)
  | .establishReq s p i d prm =>
    stepAt cfg ok (findOrCreate L p i d).1 (findOrCreate L p i d).2 (.establishReq s prm)
  | .smUnitdataReq s pdu => stepFound cfg ok L (findSess L.es s) .enoent (.smUnitdataReq pdu)
  | .pageInd t => stepFound cfg ok L (findGmmTlli L.es t) .enoent .pageInd
  | .llcTransmitted t => stepFound cfg ok L (findGmmTlli L.es t) .enoent .llcTransmitted
  | .rx t b => stepFound cfg ok L (findGmmTlli L.es t) .enoent (.rx b)
  | .fsmTimer k => stepAt cfg ok L k .fsmTimer
  | .t3314 k => stepAt cfg ok L k .t3314
  | .t3312 k => stepAt cfg ok L k .t3312
  | .t3316 k => stepAt cfg ok L k .t3316

/-- One event together with the answers of the neighbours. -/
structure LayerIn where
  ev : LayerEv
  ok : GmmOut → Bool

/-- A history: where it ends and what was seen. -/
def layerRun (cfg : GmmCfg) : GmmLayer → List LayerIn → Res (GmmLayer × List LayerObs)
  | L, [] => .ok (L, [])
  | L, i :: l => do
    let r ← layerStep cfg i.ok L i.ev
    let t ← layerRun cfg r.layer l
    .ok (t.1, r.seen ++ t.2)

end Verif.Gmm
