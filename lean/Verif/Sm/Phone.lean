import Verif.Sm.OverGmm
import Verif.Sndcp.Entity
import Verif.Common.Qos
/-!
# SNDCP below session management and GMM

The SM, GMM and SNDCP layers of one device.  The code that hands the primitives of one layer to the other is not
part of /repo; it is taken to pass the SNSM primitives on as they are and at once.  Of LLC, only what makes it
tell SNDCP of a new TLLI is here: it accepts LLGMM-ASSIGN.req, and both TLLIs are assigned and differ
(llc_llgmm.c:203-212).
-/
namespace Verif.Sm
open Verif

/-- The layers. -/
structure Phone where
  up : SmGmm
  sn : Sndcp.SnCtx

/-- What leaves the device or goes to its users. -/
inductive PhOut where
  | sg (o : SgOut)
  | sn (o : Sndcp.SnOut)
  deriving DecidableEq, Repr

/-- What was handed out, and the layers right after it. -/
abbrev PhSeen := PhOut × Phone

/-- Whether SNDCP can read a QoS profile, sndcp_prim.c:667-675.  Where the parser reads behind the profile, it is
still in the array of the primitive (sndcp_prim.h:128). -/
def qosOk (q : Octets) : Bool :=
  match Qos.parse q with
  | .err _ => false
  | _ => true

/-- Pass primitives on one after the other. -/
def phFold {α : Type} (f : Phone → α → Res (Phone × List PhSeen)) : Phone → List α → Res (Phone × List PhSeen)
  | s, [] => .ok (s, [])
  | s, x :: l => do
    let r ← f s x
    let t ← phFold f r.1 l
    .ok (t.1, r.2 ++ t.2)

/-- A primitive that leaves. -/
def phLeave (s : Phone) (o : PhOut) : Phone × List PhSeen := (s, [(o, s)])

/-- SM takes an answer of SNDCP, sm_prim.c:350-405: what it hands out then goes to the SMREG user. -/
def phSm (cfg : Gmm.GmmCfg) (who : Nat → Ident) (ok : Gmm.GmmOut → Bool) (s : Phone) (e : SgEv) :
    Res (Phone × List PhSeen) := do
  let r ← sgStep cfg who ok s.up e
  .ok (⟨r.1, s.sn⟩, r.2.map fun o => (.sg o, ⟨r.1, s.sn⟩))

/-- A primitive of SNDCP: SM gets the SNSM ones. -/
def phBack (cfg : Gmm.GmmCfg) (who : Nat → Ident) (ok : Gmm.GmmOut → Bool) (s : Phone) :
    Sndcp.SnOut → Res (Phone × List PhSeen)
  | .activateRsp t n => phSm cfg who ok s (.snsmActRsp t n)
  | .deactivateRsp t n => phSm cfg who ok s (.snsmDeactRsp t n)
  | o => .ok (phLeave s (.sn o))

/-- SNDCP takes a primitive; an error has no further effect. -/
def phSn (cfg : Gmm.GmmCfg) (who : Nat → Ident) (ok : Gmm.GmmOut → Bool) (s : Phone) (p : Sndcp.SnPrim) :
    Res (Phone × List PhSeen) :=
  match Sndcp.entStep s.sn p with
  | .ok r => phFold (phBack cfg who ok) ⟨s.up, r.1⟩ r.2
  | .err _ => .ok (s, [])
  | .ub f => .ub f

/-- Whether LLC tells SNDCP of a new TLLI, llc_llgmm.c:203-212. -/
def llcTells (ok : Gmm.GmmOut → Bool) (o : Gmm.GmmOut) (old new : Nat) : Bool :=
  ok o && decide (old ≠ Gmm.tlliUnassigned ∧ new ≠ Gmm.tlliUnassigned ∧ old ≠ new)

/-- A primitive of SM or GMM: SNDCP gets the SNSM ones, and the news of LLC. -/
def phUp (cfg : Gmm.GmmCfg) (who : Nat → Ident) (ok : Gmm.GmmOut → Bool) (s : Phone) (o : SgOut) :
    Res (Phone × List PhSeen) :=
  match o with
  | .sm (.snsmActInd t n sapi _ q) => phSn cfg who ok s (.activateInd t n sapi (qosOk q))
  | .sm (.snsmDeactInd t n) => phSn cfg who ok s (.deactivateInd t n)
  | .gmm i (.llgmmAssign old new gea kc) =>
    if llcTells ok (.llgmmAssign old new gea kc) old new then do
      let r ← phSn cfg who ok s (.llAssignInd old new)
      .ok (r.1, (.sg (.gmm i (.llgmmAssign old new gea kc)), s) :: r.2)
    else .ok (phLeave s (.sg o))
  | o => .ok (phLeave s (.sg o))

/-- What happens to the layers from outside: an event at SM or GMM, or a primitive of the SN user or LLC to
SNDCP. -/
inductive PhEv where
  | sg (e : SgEv)
  | sn (p : Sndcp.SnPrim)

/-- One event from outside until everything it causes has been done. -/
def phStep (cfg : Gmm.GmmCfg) (who : Nat → Ident) (ok : Gmm.GmmOut → Bool) (s : Phone) :
    PhEv → Res (Phone × List PhSeen)
  | .sg e => do
    let r ← sgStep cfg who ok s.up e
    phFold (phUp cfg who ok) ⟨r.1, s.sn⟩ r.2
  | .sn p => phSn cfg who ok s p

/-- An event that comes from outside: none of the primitives the layers give to each other.  The NSAPI of the
SN user has four bits. -/
def PhEv.Outside : PhEv → Prop
  | .sg (.snsmActRsp _ _) => False
  | .sg (.snsmDeactRsp _ _) => False
  | .sg e => e.Outside
  | .sn (.snXidReq _ _ n _) => n < 16
  | .sn (.llXidCnf _ _) => True
  | .sn _ => False

/-- A history: where it ends and what was handed out. -/
def phRun (cfg : Gmm.GmmCfg) (who : Nat → Ident) (ok : Gmm.GmmOut → Bool) : Phone → List PhEv →
    Res (Phone × List PhSeen)
  | s, [] => .ok (s, [])
  | s, e :: l => do
    let r ← phStep cfg who ok s e
    let t ← phRun cfg who ok r.1 l
    .ok (t.1, r.2 ++ t.2)

/-- All layers after they have been initialised, GPRS switched on. -/
def ph0 : Phone := ⟨sg0, { ms := true }⟩

/-- SNDCP takes packets for a TLLI, SAPI and NSAPI, sndcp_prim.c:352-374. -/
def Carries (s : Phone) (tlli sapi nsapi : Nat) : Prop := (Sndcp.byDlciNsapi s.sn tlli sapi nsapi).isSome

instance (s : Phone) (t p n : Nat) : Decidable (Carries s t p n) := by unfold Carries; infer_instance

end Verif.Sm
