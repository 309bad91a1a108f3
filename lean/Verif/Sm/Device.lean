import Verif.Sm.Phone
import Verif.Gmm.OverLlc
import Verif.Sndcp.Segment
/-!
# The upper layers on top of LLC

SM, GMM and SNDCP (Sm/Phone) with the LLC layer of the same device (Gmm/OverLlc).  What GMM hands to LLC is executed
there, and the LL-PDUs of the network go through LLC first.  The runs are those in which no layer refuses a primitive;
where LLC refuses one there is no run.  The XID requests of SNDCP are not passed on, since Sndcp/Entity leaves out
their contents.
-/
namespace Verif.Sm
open Verif

/-- The device. -/
structure Device where
  ph : Phone
  llc : Llc.Ctx

/-- What GMM handed out. -/
def gmmOuts (tr : List PhSeen) : List Gmm.GmmOut :=
  tr.filterMap fun y => match y.1 with
    | .sg (.gmm _ o) => some o
    | _ => none

/-- The neighbours accept everything. -/
def noneRefuses : Gmm.GmmOut → Bool := fun _ => true

/-- An event, with what was handed out and what LLC emitted. -/
def devEv (cfg : Gmm.GmmCfg) (who : Nat → Ident) (s : Device) (e : PhEv) :
    Option (Device × List PhSeen × List Llc.Out) :=
  match phStep cfg who noneRefuses s.ph e with
  | .ok r => (Gmm.llcTake noneRefuses s.llc (gmmOuts r.2)).map fun x => (⟨r.1, x.1⟩, r.2, x.2)
  | _ => none

/-- The messages for GMM: LL-UNITDATA.ind of SAPI 1. -/
def gmmInds (l : List Llc.Out) : List (Nat × Octets) :=
  l.filterMap fun o => match o with
    | .unitdataInd t 1 b => some (t, b)
    | _ => none

/-- An LL-PDU of the network under a TLLI.  LLC makes at most one LL-UNITDATA.ind of it (llc.c:876-908). -/
def devFrame (cfg : Gmm.GmmCfg) (who : Nat → Ident) (s : Device) (t : Nat) (pdu : Octets) :
    Option (Device × List PhSeen × List Llc.Out) :=
  match gmmInds (s.llc.step (.rxPdu t pdu)).out with
  | (u, b) :: _ => devEv cfg who ⟨s.ph, (s.llc.step (.rxPdu t pdu)).ctx⟩ (.sg (.gmm (.rx u b)))
  | [] => some (⟨s.ph, (s.llc.step (.rxPdu t pdu)).ctx⟩, [], (s.llc.step (.rxPdu t pdu)).out)

/-- All layers after they have been initialised, GPRS switched on. -/
def dev0 : Device := ⟨ph0, Llc.Ctx.init .ms⟩

/-- N201-U of an SNDCP entity, sndcp.c:43-52 and 146. -/
def snN201u : Nat → Nat
  | 1 => 400
  | 2 => 270
  | 3 => 500
  | 5 => 500
  | 7 => 270
  | 8 => 270
  | 9 => 500
  | 11 => 500
  | _ => 0

/-- The sending part of a new SNDCP entity, `gprs_sndcp_sne_alloc`, sndcp.c:131-153. -/
def snNew (nsapi sapi : Nat) : Sndcp.TxEnt := ⟨nsapi, snN201u sapi, 0⟩

end Verif.Sm
