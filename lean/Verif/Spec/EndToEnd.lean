import Verif.Sndcp.Segment
import Verif.Llc.Entity
import Verif.Props.LlcEntity
import Verif.Props.SndcpSegment

/-!
# Specification: N-PDUs through the whole stack

One direction of a connection: the sender's SNDCP entity and LLC context, the receiver's LLC context and SNDCP entity.
Below LLC is RLC/MAC, which the properties treat separately for the two directions.
-/
namespace Verif.Spec

open Verif Verif.Llc Verif.Sndcp Verif.Props

/-- One direction of a connection.  The receiving SNDCP entity may be in any state (`rx`). -/
structure Path where
  tlli : Nat
  sapi : Nat
  prio : Nat
  tx : TxEnt
  llcTx : Llc.Ctx
  llcRx : Llc.Ctx
  rx : Defrag

/-- What the LLC context answers to requests made one after the other. -/
def answers (c : Llc.Ctx) : List Llc.Op → List (Res Unit)
  | [] => []
  | op :: ops => (c.step op).rc :: answers (c.step op).ctx ops

/-- The LL-UNITDATA.requests SNDCP makes of its segments. -/
def Path.requests (p : Path) (segs : List Octets) : List Llc.Op := segs.map (Llc.Op.unitdataReq p.tlli p.sapi p.prio)

/-- SN-UNITDATA.requests with the N-PDUs `ns`, one after the other: the LLC frames handed to RLC/MAC.  That LLC accepts
every segment, as `sendAll` supposes, is part of the outcome. -/
def Path.send (p : Path) (ns : List Octets) : Res (List Octets) := do
  let segs ← sendAll p.tx ns
  if ∀ a ∈ answers p.llcTx (p.requests segs.flatten), a = .ok () then
    .ok (framesOf (p.llcTx.run (p.requests segs.flatten)).2)
  else .err .einval

/-- The contents of the LL-UNITDATA.indications on a SAPI. -/
def indications (sapi : Nat) (out : List Llc.Out) : List Octets :=
  out.filterMap fun o => match o with
    | .unitdataInd _ s d => if s = sapi then some d else none
    | _ => none

/-- LLC frames handed up by RLC/MAC: the N-PDUs in the SN-UNITDATA.indications. -/
def Path.receive (p : Path) (frames : List Octets) : Res (List Octets) := do
  let r ← rxRun p.rx (indications p.sapi (p.llcRx.run (frames.map (Llc.Op.rxPdu p.tlli))).2)
  .ok r.2

/-- The two ends are ready: LLC knows the TLLI on both sides and is not suspended, the receiver expects the number the
sender uses next, SNDCP goes by an N201-U of the standard that LLC grants. -/
structure Path.Ready (p : Path) : Prop where
  sapi : UserSapi p.sapi
  tlli : tlliTypeOk p.tlli = true
  ends : ∃ i j ms mr, p.llcTx.find p.tlli = some i ∧ p.llcTx.llmes[i]? = some ms ∧
    p.llcRx.find p.tlli = some j ∧ p.llcRx.llmes[j]? = some mr ∧
    (ms.lle p.sapi).sapi = p.sapi ∧ ms.suspended = false ∧ (ms.lle p.sapi).vuSend < 512 ∧
    (mr.lle p.sapi).vuRecv = (ms.lle p.sapi).vuSend ∧ (ms.lle p.sapi).params.n201u ≤ 1520 ∧
    p.tx.n201u ≤ (ms.lle p.sapi).params.n201u
  n201u : N201uRange p.tx.n201u
  nsapi : p.tx.nsapi < 16
  num : p.tx.txNpdu < 4096

/-- N-PDUs of the standard: 1 to 1502 octets. -/
def Npdus (ns : List Octets) : Prop := ∀ n ∈ ns, n ≠ [] ∧ n.length ≤ 1502

end Verif.Spec
