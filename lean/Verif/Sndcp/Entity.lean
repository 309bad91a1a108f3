import Verif.Basic
/-!
# SNDCP entities and management entities

Models src/sndcp/sndcp.c:54-198 (entities), the SNSM primitives of src/sndcp/sndcp_prim.c:632-731, the
TLLI change (543-558) and the XID primitives as far as they concern which entity is asked and answered
(sndcp_prim.c:376-396, 505-541, sndcp.c:790-816, 1010-1045, 1095-1187).  What the XID blocks contain is
in `Verif.Sndcp.Comp`.
-/
namespace Verif.Sndcp

/-- `struct gprs_sndcp_entity` (sndcp_private.h:137-176), the fields that matter here. -/
structure Sne where
  sapi : Nat
  nsapi : Nat
  /-- `l3xid_req` holds something -/
  xidReq : Bool := false
  /-- `xid_req_in_transit_orig_snsm_activate_ind` -/
  actPending : Bool := false
  /-- `xid_req_in_transit_orig_sn_xid_req` -/
  xidPending : Bool := false
  deriving DecidableEq, Repr

/-- `struct gprs_sndcp_mgmt_entity` (sndcp_private.h:179-194): its TLLI and the sixteen entity
pointers. -/
structure Snme where
  tlli : Nat
  sne : Nat → Option Sne

/-- The context: where it runs and the list of management entities, head first. -/
structure SnCtx where
  ms : Bool
  snmes : List Snme := []

/-- Primitives sent by SNDCP. -/
inductive SnOut where
  | activateRsp (tlli nsapi : Nat)
  | deactivateRsp (tlli nsapi : Nat)
  | llXidReq (tlli sapi : Nat)
  | snXidCnf (tlli sapi nsapi : Nat)
  deriving DecidableEq, Repr

/-- Primitives received by SNDCP.  `qosOk` says whether the QoS profile can be parsed; `something`
whether the SN-XID.req proposes anything. -/
inductive SnPrim where
  | activateInd (tlli nsapi sapi : Nat) (qosOk : Bool)
  | deactivateInd (tlli nsapi : Nat)
  | llAssignInd (old new : Nat)
  | snXidReq (tlli sapi nsapi : Nat) (something : Bool)
  | llXidCnf (tlli sapi : Nat)
  deriving DecidableEq, Repr

/-- `gprs_sndcp_snme_find_by_tlli` (sndcp.c:93-102). -/
def SnCtx.find (c : SnCtx) (tlli : Nat) : Option Snme := c.snmes.find? (fun m => m.tlli = tlli)

/-- The list with the management entity found for a TLLI replaced. -/
def replaceFirst (tlli : Nat) (m' : Snme) : List Snme → List Snme
  | [] => []
  | m :: ms => if m.tlli = tlli then m' :: ms else m :: replaceFirst tlli m' ms

/-- The list without it (`llist_del`). -/
def removeFirst (tlli : Nat) : List Snme → List Snme
  | [] => []
  | m :: ms => if m.tlli = tlli then ms else m :: removeFirst tlli ms

/-- `snme->sne[nsapi] = e`. -/
def Snme.set (m : Snme) (nsapi : Nat) (e : Option Sne) : Snme :=
  { m with sne := fun i => if i = nsapi then e else m.sne i }

/-- The loop of `gprs_sndcp_snme_detach_sne` (sndcp.c:122-125). -/
def Snme.isEmpty (m : Snme) : Bool := (List.range 16).all (fun i => (m.sne i).isNone)

/-- The first entity of a SAPI (sndcp.c:1022-1031, 1112-1121, and `gprs_sndcp_sne_by_dlci`
174-181). -/
def Snme.bySapi (m : Snme) (sapi : Nat) : Option Sne :=
  ((List.range 16).filterMap m.sne).find? (fun e => e.sapi = sapi)

/-- The end of SNSM-ACTIVATE.ind in an MS (sndcp_prim.c:669-696): QoS profile, then XID exchange or
answer. -/
def activateMs (c : SnCtx) (tlli nsapi : Nat) (m : Snme) (e : Sne) (qosOk : Bool) :
    SnCtx × List SnOut :=
  if qosOk = false then (c, [])
  else if e.xidReq = true then
    ({ c with snmes := replaceFirst tlli (m.set nsapi (some { e with actPending := true })) c.snmes },
      [.llXidReq m.tlli e.sapi])
  else (c, [.activateRsp m.tlli nsapi])

/-- SNSM-ACTIVATE.ind for a given entity: nothing more to do in the network. -/
def activateRest (c : SnCtx) (tlli nsapi : Nat) (m : Snme) (e : Sne) (qosOk : Bool) :
    SnCtx × List SnOut :=
  if c.ms = true then activateMs c tlli nsapi m e qosOk else (c, [])

/-- SNSM-ACTIVATE.ind with the management entity found or made (sndcp_prim.c:646-667,
`gprs_sndcp_sne_alloc` sndcp.c:131-153: the table of default values has sixteen entries). -/
def activateIn (c : SnCtx) (tlli nsapi sapi : Nat) (m : Snme) (qosOk : Bool) :
    Res (SnCtx × List SnOut) :=
  if nsapi ≥ 16 then .ub .assertFail
  else match m.sne nsapi with
    | some e => .ok (activateRest c tlli nsapi m e qosOk)
    | none =>
      if sapi ≥ 16 then .ub .outOfBounds
      else
        let e : Sne := { sapi := sapi, nsapi := nsapi }
        let m' := m.set nsapi (some e)
        .ok (activateRest { c with snmes := replaceFirst tlli m' c.snmes } tlli nsapi m' e qosOk)

/-- `gprs_sndcp_prim_handle_sndcp_snsm_activate_ind` (sndcp_prim.c:632-697). -/
def activateInd (c : SnCtx) (tlli nsapi sapi : Nat) (qosOk : Bool) : Res (SnCtx × List SnOut) :=
  match c.find tlli with
  | some m => activateIn c tlli nsapi sapi m qosOk
  | none =>
    let m : Snme := { tlli := tlli, sne := fun _ => none }
    activateIn { c with snmes := m :: c.snmes } tlli nsapi sapi m qosOk

/-- `gprs_sndcp_prim_handle_sndcp_snsm_deactivate_ind` (sndcp_prim.c:700-731) with
`gprs_sndcp_sne_free` and `gprs_sndcp_snme_detach_sne` (sndcp.c:113-129, 155-164): -EIO if there is no
such entity. -/
def deactivateInd (c : SnCtx) (tlli nsapi : Nat) : Res (SnCtx × List SnOut) :=
  match c.find tlli with
  | none => .err .eio
  | some m =>
    if nsapi ≥ 16 then .ub .assertFail
    else match m.sne nsapi with
      | none => .err .eio
      | some _ =>
        let m' := m.set nsapi none
        .ok ({ c with snmes := if m'.isEmpty then removeFirst tlli c.snmes
                               else replaceFirst tlli m' c.snmes },
          [.deactivateRsp tlli nsapi])

/-- `gprs_sndcp_prim_handle_llc_ll_assign_ind` (sndcp_prim.c:543-558). -/
def llAssignInd (c : SnCtx) (old new : Nat) : Res (SnCtx × List SnOut) :=
  match c.find old with
  | none => .err .eio
  | some m => .ok ({ c with snmes := replaceFirst old { m with tlli := new } c.snmes }, [])

/-- SN-XID.req (sndcp_prim.c:376-396, sndcp.c:790-816). -/
def snXidReq (c : SnCtx) (tlli sapi nsapi : Nat) (something : Bool) : Res (SnCtx × List SnOut) :=
  match c.find tlli with
  | none => .err .eio
  | some m =>
    if nsapi ≥ 16 then .ub .assertFail
    else match m.sne nsapi with
      | none => .err .eio
      | some e =>
        if e.sapi ≠ sapi then .err .eio
        else
          let m' := m.set nsapi (some { e with xidReq := something, xidPending := true })
          .ok ({ c with snmes := replaceFirst tlli m' c.snmes }, [.llXidReq m.tlli e.sapi])

/-- LL-XID.cnf (sndcp_prim.c:525-541, sndcp.c:1095-1187), for an answer that can be parsed: the first
entity of the SAPI is told. -/
def llXidCnf (c : SnCtx) (tlli sapi : Nat) : Res (SnCtx × List SnOut) :=
  match c.find tlli with
  | none => .err .eio
  | some m =>
    match m.bySapi sapi with
    | none => .err .einval
    | some e =>
      let m' := m.set e.nsapi (some { e with actPending := false, xidPending := false })
      .ok ({ c with snmes := replaceFirst tlli m' c.snmes },
        (if e.actPending then [.activateRsp m.tlli e.nsapi] else []) ++
        (if e.xidPending then [.snXidCnf m.tlli e.sapi e.nsapi] else []))

/-- One primitive. -/
def entStep (c : SnCtx) : SnPrim → Res (SnCtx × List SnOut)
  | .activateInd tlli nsapi sapi qosOk => activateInd c tlli nsapi sapi qosOk
  | .deactivateInd tlli nsapi => deactivateInd c tlli nsapi
  | .llAssignInd old new => llAssignInd c old new
  | .snXidReq tlli sapi nsapi something => snXidReq c tlli sapi nsapi something
  | .llXidCnf tlli sapi => llXidCnf c tlli sapi

/-- A history: errors leave the state as it is. -/
def entRun : SnCtx → List SnPrim → Res (SnCtx × List SnOut)
  | c, [] => .ok (c, [])
  | c, p :: ps =>
    match entStep c p with
    | .ub f => .ub f
    | .err _ => entRun c ps
    | .ok (c, o) =>
      (match entRun c ps with
      | .ok (c, os) => .ok (c, o ++ os)
      | .err e => .err e
      | .ub f => .ub f)

/-- `gprs_sndcp_sne_by_dlci_nsapi` (sndcp.c:186-198), for NSAPIs below 16. -/
def byDlciNsapi (c : SnCtx) (tlli sapi nsapi : Nat) : Option Sne :=
  match c.find tlli with
  | none => none
  | some m => match m.sne nsapi with
    | some e => if e.sapi = sapi then some e else none
    | none => none

end Verif.Sndcp
