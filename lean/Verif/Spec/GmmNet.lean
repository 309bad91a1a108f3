import Verif.Spec.GmmMsg
/-!
# GMM messages of the network: specification

The messages a network sends, from the tables of TS 24.008 clause 9.4, without reference to the model.
-/
namespace Verif.Spec.Gmm
open Verif

/-- Two half octets: the first element of a table is in bits 1 to 4, the second in bits 5 to 8
(TS 24.007 11.2.1.1.2). -/
def halves (lo hi : Nat) : UInt8 := UInt8.ofNat (lo % 16 + 16 * (hi % 16))

/-- A message of the network with its parts; `fts` is the value of Force to standby, table 10.5.123. -/
inductive NetMsg where
  /-- ATTACH ACCEPT, table 9.4.2 -/
  | attachAccept (result fts : Nat) (timer prio : UInt8) (ra opts : Octets)
  /-- DETACH ACCEPT to a mobile station, table 9.4.6.2 -/
  | detachAccept (fts : Nat)
  /-- ROUTING AREA UPDATE ACCEPT, table 9.4.15 -/
  | rauAccept (fts result : Nat) (timer : UInt8) (ra opts : Octets)
  /-- ROUTING AREA UPDATE REJECT, table 9.4.17 -/
  | rauReject (cause : UInt8) (fts : Nat) (opts : Octets)
  /-- IDENTITY REQUEST, table 9.4.12 -/
  | identityRequest (type fts : Nat)
  /-- P-TMSI REALLOCATION COMMAND, table 9.4.7: the signature is optional -/
  | ptmsiRealloc (ptmsi : Nat) (ra : Octets) (fts : Nat) (sig : Option Octets)
  /-- AUTHENTICATION AND CIPHERING REQUEST, table 9.4.9: RAND and key sequence number are optional -/
  | authRequest (alg imeisvReq fts ref : Nat) (rand : Option Octets) (cksn : Option Nat)

/-- An optional element with an identifier and a value of fixed length. -/
def tvOpt (tag : UInt8) : Option Octets → Octets
  | some v => tag :: v
  | none => []

/-- The octets of the message. -/
def NetMsg.encode : NetMsg → Octets
  | .attachAccept result fts timer prio ra opts => [0x08, 0x02, halves result fts, timer, prio] ++ ra ++ opts
  | .detachAccept fts => [0x08, 0x06, halves fts 0]
  | .rauAccept fts result timer ra opts => [0x08, 0x09, halves fts result, timer] ++ ra ++ opts
  | .rauReject cause fts opts => [0x08, 0x0b, cause, halves fts 0] ++ opts
  | .identityRequest type fts => [0x08, 0x15, halves type fts]
  | .ptmsiRealloc p ra fts sig =>
    [0x08, 0x10, 5] ++ ptmsiIdentity p ++ ra ++ [halves fts 0] ++ tvOpt 0x19 sig
  | .authRequest alg iv fts ref rand cksn =>
    [0x08, 0x12, halves alg iv, halves fts ref] ++ tvOpt 0x21 rand ++
      (match cksn with
       | some k => [halves k 8]
       | none => [])

/-- Is the value of Force to standby in the message the one that asks for it?  All values other than 1 are
to be taken as not asking. -/
def NetMsg.fts : NetMsg → Nat
  | .attachAccept _ fts .. => fts
  | .detachAccept fts => fts
  | .rauAccept fts .. => fts
  | .rauReject _ fts _ => fts
  | .identityRequest _ fts => fts
  | .ptmsiRealloc _ _ fts _ => fts
  | .authRequest _ _ fts .. => fts

/-- The lengths and ranges the tables prescribe. -/
def NetMsg.WellFormed : NetMsg → Prop
  | .attachAccept _ fts _ _ ra _ => fts < 8 ∧ ra.length = 6
  | .detachAccept fts => fts < 8
  | .rauAccept fts _ _ ra _ => fts < 8 ∧ ra.length = 6
  | .rauReject _ fts _ => fts < 8
  | .identityRequest _ fts => fts < 8
  | .ptmsiRealloc p ra fts sig => p < 2 ^ 32 ∧ ra.length = 6 ∧ fts < 8 ∧ ∀ s ∈ sig, s.length = 3
  | .authRequest _ _ fts _ rand cksn => fts < 8 ∧ (∀ x ∈ rand, x.length = 16) ∧ ∀ k ∈ cksn, k < 8

/-- The messages that concern the READY timer by Force to standby only and leave the mobile station as it
is registered. -/
def NetMsg.Passing : NetMsg → Prop
  | .identityRequest .. => True
  | .ptmsiRealloc .. => True
  | .authRequest .. => True
  | _ => False

end Verif.Spec.Gmm
