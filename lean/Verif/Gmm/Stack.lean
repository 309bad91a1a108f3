import Verif.Gmm.EntityLemmas
import Verif.Rlc.Directory
/-!
# GMM on top of RLC/MAC

The entity of a mobile station together with the entities of RLC/MAC.  The code that hands the primitives of
one layer to the other is not part of /repo; it is taken to pass GMMRR-ASSIGN.req on as it is and to return
the result, and the LL-PDUs reach RLC/MAC as GRR-UNITDATA.req with the TLLI GMM gave to LLC.  What the other
neighbours accept is left open.
-/
namespace Verif.Gmm
open Verif Verif.Rlc

/-- The entity of GMM and those of RLC/MAC. -/
structure Stack where
  g : Gmme
  d : GreDir

/-- What one primitive does to the entities of RLC/MAC. -/
def stackOut (imsi : List Nat) (d : GreDir) : GmmOut → GreDir
  | .gmmrrAssign old new ptmsi => (greAssign d old new ptmsi imsi).1
  | .llUnitdata tlli _ => (greUnitdata d tlli).1
  | _ => d

/-- Which primitives are accepted.  At most one GMMRR-ASSIGN.req is handed out during an event, and nothing
is sent before it, so that it meets the entities of RLC/MAC as they were before the event. -/
def stackOk (s : Stack) (ok : GmmOut → Bool) : GmmOut → Bool
  | .gmmrrAssign old new ptmsi => (greAssign s.d old new ptmsi s.g.imsi).2 = none
  | o => ok o

/-- One event. -/
def stackStep (cfg : GmmCfg) (s : Stack) (i : GmmIn) : Res (Stack × List GmmOut) :=
  match gmmStep cfg (stackOk s i.ok) s.g i.ev with
  | .ok r => .ok (⟨r.g, r.out.foldl (stackOut s.g.imsi) s.d⟩, r.out)
  | .err e => .err e
  | .ub f => .ub f

/-- A history: where it ends and what was handed out. -/
def stackRun (cfg : GmmCfg) (s : Stack) : List GmmIn → Res (Stack × List GmmOut)
  | [] => .ok (s, [])
  | i :: l =>
    match stackStep cfg s i with
    | .ok (s', o) =>
      match stackRun cfg s' l with
      | .ok (s'', o') => .ok (s'', o ++ o')
      | .err e => .err e
      | .ub f => .ub f
    | .err e => .err e
    | .ub f => .ub f

/-- A mobile station that has just been switched on, RLC/MAC without entities. -/
def stack0 (ptmsi : Nat) (imsi : List Nat) (rnd : Nat) : Stack := ⟨gmmeAlloc true ptmsi imsi rnd, greDir0⟩

end Verif.Gmm
