import Verif.Gmm.EntityLemmas
import Verif.Llc.Entity
/-!
# GMM on top of LLC

The entity of a mobile station together with the LLC layer of the same device.  The code that hands the
primitives of one layer to the other is not part of /repo; it is taken to pass the LL and LLGMM primitives of
GMM on as they are and to return LLC's result, and to hand the LL-UNITDATA.ind of SAPI 1 to GMM.
-/
namespace Verif.Gmm
open Verif

/-- The entity of GMM and the LLC layer. -/
structure LlcStack where
  g : Gmme
  c : Llc.Ctx

/-- The primitive LLC gets: LL-UNITDATA.req on SAPI 1, gmm.c:652-664 (radio priority 1, as for the
other messages, and gmm_prim.c:658), the LLGMM primitives of gmm.c:538-550 and gmm_ms_fsm.c:206-208 and
264-267, and the page response of gmm_prim.c:748. -/
def llcOpOf : GmmOut → Option Llc.Op
  | .llUnitdata t pdu => some (.unitdataReq t 1 1 pdu)
  | .llgmmAssign old new _ _ => some (.assignReq old new)
  | .llgmmSuspend t => some (.suspendReq t)
  | .llgmmResume t => some (.resumeReq t)
  | .llgmmTrigger t => some (.triggerReq t false)
  | _ => none

/-- Whether a primitive was accepted: the return value is not negative. -/
def accepted (rc : Res Unit) : Bool :=
  match rc with
  | .ok _ => true
  | _ => false

/-- LLC takes the primitives GMM hands out, one after the other.  `none`: `ok` is not what LLC answers. -/
def llcTake (ok : GmmOut → Bool) (c : Llc.Ctx) : List GmmOut → Option (Llc.Ctx × List Llc.Out)
  | [] => some (c, [])
  | o :: l =>
    match llcOpOf o with
    | none => llcTake ok c l
    | some op =>
      if ok o = accepted (c.step op).rc then
        (llcTake ok (c.step op).ctx l).map fun r => (r.1, (c.step op).out ++ r.2)
      else none

/-- An event of GMM with LLC below it: where it leads to, what GMM handed out and what LLC emitted.  The
other neighbours are free to accept or to refuse. -/
def OverLlc (cfg : GmmCfg) (s : LlcStack) (i : GmmIn) (s' : LlcStack) (outs : List GmmOut)
    (emitted : List Llc.Out) : Prop :=
  ∃ r, gmmStep cfg i.ok s.g i.ev = .ok r ∧ s'.g = r.g ∧ outs = r.out ∧
    llcTake i.ok s.c r.out = some (s'.c, emitted)

/-- What the neighbours of LLC other than GMM do: everything but the LLGMM primitives. -/
def NotLlgmm : Llc.Op → Prop
  | .assignReq _ _ | .resetReq _ _ | .triggerReq _ _ | .suspendReq _ | .resumeReq _ => False
  | _ => True

/-- The states of a mobile station's GMM and LLC layers: messages reach GMM in LL-PDUs, all other events
happen at any time, and the other users of LLC and the lower layer do what they like. -/
inductive OverReach (cfg : GmmCfg) : LlcStack → Prop where
  | start (enabled : Bool) (ptmsi : Nat) (imsi : List Nat) (rnd : Nat) :
    OverReach cfg ⟨gmmeAlloc enabled ptmsi imsi rnd, Llc.Ctx.init .ms⟩
  | event {s s' : LlcStack} {i : GmmIn} {outs : List GmmOut} {em : List Llc.Out} : OverReach cfg s →
    (∀ b, i.ev ≠ .rx b) → OverLlc cfg s i s' outs em → OverReach cfg s'
  | frame {s s' : LlcStack} {t u : Nat} {pdu b : Octets} {ok : GmmOut → Bool} {outs : List GmmOut}
    {em : List Llc.Out} : OverReach cfg s → .unitdataInd u 1 b ∈ (s.c.step (.rxPdu t pdu)).out →
    (s.g.tlli = u ∨ s.g.oldTlli = u) →
    OverLlc cfg ⟨s.g, (s.c.step (.rxPdu t pdu)).ctx⟩ ⟨.rx b, ok⟩ s' outs em → OverReach cfg s'
  | llc {s : LlcStack} (op : Llc.Op) : OverReach cfg s → NotLlgmm op → OverReach cfg ⟨s.g, (s.c.step op).ctx⟩

end Verif.Gmm
