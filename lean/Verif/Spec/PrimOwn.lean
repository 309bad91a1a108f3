import Verif.Prim.Own

/-!
# Specification: who frees a primitive

The numbers of SAPs and types are those of the public headers (include/osmocom/gprs/*/…_prim.h).
-/
namespace Verif.Spec

open Verif Verif.Prim

/-- The functions an application (or another layer) hands primitives to. -/
inductive Entry where
  | llcUpperDown | llcLowerUp
  | sndcpUpperDown | sndcpLowerUp | sndcpSnsm
  | smUpperDown | smSndcpUpperDown | smLowerUp | smGmmLowerUp
  | gmmUpperDown | gmmLowerUp | gmmLlcLowerUp
  | rlcmacUpperDown | rlcmacLowerUp
  deriving DecidableEq, Repr

/-- Handing a primitive to one of them. -/
def Entry.hand : Entry → Hdr → Inner → Res (Msg × Int)
  | .llcUpperDown => Prim.llcUpperDown
  | .llcLowerUp => Prim.llcLowerUp
  | .sndcpUpperDown => Prim.sndcpUpperDown
  | .sndcpLowerUp => Prim.sndcpLowerUp
  | .sndcpSnsm => Prim.sndcpSnsm
  | .smUpperDown => Prim.smUpperDown
  | .smSndcpUpperDown => Prim.smSndcpDown
  | .smLowerUp => Prim.smLowerUp
  | .smGmmLowerUp => Prim.smGmmUp
  | .gmmUpperDown => Prim.gmmUpperDown
  | .gmmLowerUp => Prim.gmmLowerUp
  | .gmmLlcLowerUp => Prim.gmmLlcUp
  | .rlcmacUpperDown => Prim.rlcmacUpperDown
  | .rlcmacLowerUp => Prim.rlcmacLowerUp

/-- The primitive was freed, once, and not touched after that. -/
def freedOnce (r : Res (Msg × Int)) : Prop := ∃ rc, r = .ok (.freed, rc)

/-- The primitive was never freed. -/
def leaked (r : Res (Msg × Int)) : Prop := ∃ rc, r = .ok (.live, rc)

/-- The process aborted on an assertion of the library. -/
def aborted (r : Res (Msg × Int)) : Prop := r = .ub .assertFail

/-- LL-UNITDATA.ind, LL-ESTABLISH.cnf, LL-XID.ind, LL-XID.cnf and LL-ASSIGN.ind: what SNDCP takes from LLC. -/
def sndcpTakes : List (Nat × Op) :=
  [(5, .indication), (1, .confirm), (3, .indication), (3, .confirm), (7, .indication)]

/-- Freed twice: GRR-DATA.ind (SAP 2, type 0) to LLC; from LLC to SNDCP on SAP 1, everything SNDCP does not take; on SNSM
(SAP 1), everything but ACTIVATE.ind (0) and DEACTIVATE.ind (1). -/
def freedTwice (e : Entry) (h : Hdr) : Prop :=
  match e with
  | .llcLowerUp => h = ⟨2, 0, .indication⟩
  | .sndcpLowerUp => h.sap = 1 ∧ (h.typ, h.op) ∉ sndcpTakes
  | .sndcpSnsm => h.sap = 1 ∧ (h.typ, h.op) ∉ [(0, Op.indication), (1, .indication)]
  | _ => False

/-- Read after it was freed: SN-DATA.req (SAP 0, type 0) for an entity that exists; on SMREG (SAP 0), everything but PDP-ACTIVATE.req (0); SNSM primitives to SM (SAP 1) except
ACTIVATE.rsp (0) and DEACTIVATE.rsp (1); on GMMREG (SAP 0), everything but ATTACH.req (0), DETACH.req (1) and
SIM-AUTH.rsp (2). -/
def readAfterFree (e : Entry) (h : Hdr) (found : Bool) : Prop :=
  match e with
  | .sndcpUpperDown => h = ⟨0, 0, .request⟩ ∧ found = true
  | .smUpperDown => h.sap = 0 ∧ (h.typ, h.op) ≠ (0, .request)
  | .smSndcpUpperDown => h.sap = 1 ∧ (h.typ, h.op) ∉ [(0, Op.response), (1, .response)]
  | .gmmUpperDown => h.sap = 0 ∧ (h.typ, h.op) ∉ [(0, Op.request), (1, .request), (2, .response)]
  | _ => False

/-- Never freed: to RLC/MAC on GRR (SAP 0), everything but DATA.req (0) and UNITDATA.req (1); on GMMRR (SAP 1),
everything but ASSIGN.req (0). -/
def notFreed (e : Entry) (h : Hdr) : Prop :=
  match e with
  | .rlcmacUpperDown => (h.sap = 0 ∧ (h.typ, h.op) ∉ [(0, Op.request), (1, .request)]) ∨
      (h.sap = 1 ∧ (h.typ, h.op) ≠ (0, .request))
  | _ => False

/-- The callbacks an application (or another layer) registers. -/
inductive Callback where
  | llcUp | llcDown | sndcpUp | sndcpDown | sndcpSnsm | smUp | smDown | smSndcpUp | smGmmDown
  | gmmUp | gmmDown | gmmLlcDown | rlcmacUp | rlcmacDown
  deriving DecidableEq, Repr

/-- Handing a primitive to a callback that returns `rc`; one that returns 1 has taken the primitive (it counts as freed
for the library). -/
def Callback.call : Callback → Int → Res (Msg × Int)
  | .llcUp => callCbLlcUp
  | .smUp => callCbSm
  | .smDown => callCbSm
  | _ => callCb

end Verif.Spec
