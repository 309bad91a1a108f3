import Verif.Basic
/-!
# Specification side of SNDCP segmentation (3GPP TS 44.065, 6.7 and 7.2)

Independent of the model: the SN-UNITDATA PDU as a record of its fields and its coding in octets.
-/
namespace Verif.Spec.Sndcp

/-- The fields of an SN-UNITDATA PDU (TS 44.065, figure 9). -/
structure SnPdu where
  /-- first segment indicator F -/
  first : Bool
  /-- more bit M -/
  more : Bool
  nsapi : Nat
  /-- N-PDU number, 12 bits -/
  npdu : Nat
  /-- segment number, 4 bits -/
  seg : Nat
  payload : Octets
  deriving DecidableEq, Repr

/-- The coding: octet 1 = X F T M NSAPI with T = 1, octet 2 = DCOMP PCOMP (first segment only, here
"no compression"), octet 3 = segment number and N-PDU number (high), octet 4 = N-PDU number (low),
then the data. -/
def SnPdu.encode (p : SnPdu) : Octets :=
  UInt8.ofNat ((if p.first then 64 else 0) + 32 + (if p.more then 16 else 0) + p.nsapi) ::
    ((if p.first then [0] else []) ++
      (UInt8.ofNat (p.seg * 16 + p.npdu / 256) :: UInt8.ofNat (p.npdu % 256) :: p.payload))

/-- All fields fit their places. -/
def SnPdu.WellFormed (p : SnPdu) : Prop := p.nsapi < 16 ∧ p.npdu < 4096 ∧ p.seg < 16

/-- A list of SN-UNITDATA PDUs is a segmentation of `npdu` for the maximal information field length
`n201u`: each fits, exactly the first has F, exactly the last has M clear, all carry the same NSAPI
and N-PDU number, and the payloads make up the N-PDU. -/
structure Segmentation (n201u nsapi num : Nat) (npdu : Octets) (ps : List SnPdu) : Prop where
  nonempty : ps ≠ []
  wf : ∀ p ∈ ps, p.WellFormed
  fits : ∀ p ∈ ps, p.encode.length ≤ n201u
  first_iff : ∀ i p, ps[i]? = some p → (p.first = true ↔ i = 0)
  more_iff : ∀ i p, ps[i]? = some p → (p.more = true ↔ i + 1 < ps.length)
  nsapi_eq : ∀ p ∈ ps, p.nsapi = nsapi
  num_eq : ∀ p ∈ ps, p.npdu = num
  payload : (ps.map SnPdu.payload).flatten = npdu

/-- Segments are numbered from zero upwards. -/
def Numbered (ps : List SnPdu) : Prop := ∀ (i : Nat) (p : SnPdu), ps[i]? = some p → p.seg = i

/-- The segments received for the N-PDU being reassembled after a history of SN-UNITDATA PDUs: those
since the last first segment (a PDU that is a whole N-PDU by itself does not count). -/
def sinceFirst (hist : List SnPdu) : List SnPdu :=
  hist.foldl (fun acc p => if p.first then (if p.more then [p] else acc) else acc ++ [p]) []

/-- Total number of payload octets. -/
def totalLen (ps : List SnPdu) : Nat := (ps.map (fun p => p.payload.length)).sum

/-- The F, T and M bits of an SN-PDU in octets; T set means SN-UNITDATA. -/
def fBit (b : Octets) : Bool := match b with
  | [] => false
  | o :: _ => o.toNat / 64 % 2 = 1
def tBit (b : Octets) : Bool := match b with
  | [] => false
  | o :: _ => o.toNat / 32 % 2 = 1
def mBit (b : Octets) : Bool := match b with
  | [] => false
  | o :: _ => o.toNat / 16 % 2 = 1

/-- Octets of the open N-PDU after one more SN-PDU: an SN-UNITDATA PDU with F and M opens a new one,
one with F alone is a whole N-PDU, any other adds to the open one. -/
def openStep (n : Nat) (b : Octets) : Nat :=
  if tBit b then (if fBit b then (if mBit b then b.length else n) else n + b.length) else n

/-- Number of octets received in SN-PDUs since the last one that started a segmented N-PDU. -/
def openOctets (hist : List Octets) : Nat := hist.foldl openStep 0

/-- Element by element. -/
inductive Pointwise {α β : Type} (R : α → β → Prop) : List α → List β → Prop where
  | nil : Pointwise R [] []
  | cons {a b as bs} : R a b → Pointwise R as bs → Pointwise R (a :: as) (b :: bs)

/-- Arrival of the PDUs of one N-PDU with the first one first and the others in any order. -/
def FirstThenAny (sent arrived : List Octets) : Prop :=
  ∃ p rest rest', sent = p :: rest ∧ arrived = p :: rest' ∧ rest'.Perm rest

end Verif.Spec.Sndcp
