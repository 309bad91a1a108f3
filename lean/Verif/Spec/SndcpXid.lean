import Verif.Basic
/-!
# Specification side of SNDCP XID negotiation (3GPP TS 44.065, 6.5, 6.6 and 8)

Independent of the model: compression proposals as records, their legal values and their coding.
-/
namespace Verif.Spec.SndcpXid

/-- A compression algorithm with its parameters (TS 44.065, tables 5, 6, 7a, 7c and 10). -/
inductive Alg where
  | rfc1144 (s0 : Nat)
  | rfc2507 (fMaxPeriod fMaxTime maxHeader tcpSpace nonTcpSpace : Nat)
  | rohc (maxCid maxHeader : Nat) (profiles : List Nat)
  | v42bis (p0 p1 p2 : Nat)
  | v44 (c0 p0 p1t p1r p3t p3r : Nat)
  deriving DecidableEq, Repr

/-- The parameter values the standard allows. -/
def Alg.Legal : Alg → Prop
  | .rfc1144 s0 => s0 ≤ 255
  | .rfc2507 a b c d e => (1 ≤ a ∧ a ≤ 65535) ∧ (1 ≤ b ∧ b ≤ 255) ∧ (60 ≤ c ∧ c ≤ 255) ∧
      (3 ≤ d ∧ d ≤ 255) ∧ (3 ≤ e ∧ e ≤ 65535)
  | .rohc a b ps => a ≤ 16383 ∧ (60 ≤ b ∧ b ≤ 255) ∧ ps.length ≤ 16 ∧ ∀ p ∈ ps, p ≤ 65535
  | .v42bis a b c => a ≤ 3 ∧ (512 ≤ b ∧ b ≤ 65535) ∧ (6 ≤ c ∧ c ≤ 250)
  | .v44 a b c d e f => (a = 128 ∨ a = 192) ∧ b ≤ 3 ∧ (256 ≤ c ∧ c ≤ 65535) ∧
      (256 ≤ d ∧ d ≤ 65535) ∧ (2 * c ≤ e ∧ e ≤ 65535) ∧ (2 * d ≤ f ∧ f ≤ 65535)

/-- Header (protocol control information) compression, as opposed to data compression. -/
def Alg.isHeader : Alg → Bool
  | .rfc1144 .. => true
  | .rfc2507 .. => true
  | .rohc .. => true
  | .v42bis .. => false
  | .v44 .. => false

/-- The algorithm number within its kind. -/
def Alg.number : Alg → Nat
  | .rfc1144 .. => 0
  | .rfc2507 .. => 1
  | .rohc .. => 2
  | .v42bis .. => 0
  | .v44 .. => 1

/-- Number of PCOMP or DCOMP values of the algorithm. -/
def Alg.compCount : Alg → Nat
  | .rfc1144 .. => 2
  | .rfc2507 .. => 5
  | .rohc .. => 2
  | .v42bis .. => 1
  | .v44 .. => 2

/-- A proposed compression entity. -/
structure Proposal where
  entity : Nat
  /-- PCOMP or DCOMP values -/
  comps : List Nat
  /-- NSAPIs it applies to (5 to 15 count) -/
  applies : Nat → Bool
  alg : Alg

def Proposal.Legal (x : Proposal) : Prop :=
  x.entity ≤ 31 ∧ x.comps.length = x.alg.compCount ∧ (∀ c ∈ x.comps, c ≤ 15) ∧ x.alg.Legal

/-- The NSAPIs for user data. -/
def userNsapis : List Nat := [5, 6, 7, 8, 9, 10, 11, 12, 13, 14, 15]

/-- The NSAPIs a proposal applies to. -/
def Proposal.nsapis (x : Proposal) : List Nat := userNsapis.filter x.applies

/-- Sixteen bits, most significant octet first. -/
def two (n : Nat) : Octets := [UInt8.ofNat (n / 256), UInt8.ofNat (n % 256)]

/-- One octet. -/
def one (n : Nat) : Octets := [UInt8.ofNat n]

/-- Coding of the parameters. -/
def Alg.bytes : Alg → Octets
  | .rfc1144 s0 => one s0
  | .rfc2507 a b c d e => two a ++ one b ++ one c ++ one d ++ two e
  | .rohc a b ps => two a ++ two b ++ ps.flatMap two
  | .v42bis a b c => one a ++ two b ++ one c
  | .v44 a b c d e f => one a ++ one b ++ two c ++ two d ++ two e ++ two f

/-- PCOMP / DCOMP values two per octet, the first in the high half, the last one filled with 0. -/
def halves : List Nat → Octets
  | [] => []
  | [a] => one (a * 16)
  | a :: b :: t => UInt8.ofNat (a * 16 + b) :: halves t

/-- Applicable NSAPIs as a bit map: bit n of sixteen stands for NSAPI n. -/
def Proposal.nsapiMap (x : Proposal) : Nat := (x.nsapis.map (fun n => 2 ^ n)).sum

/-- Coding of a proposed compression field: P bit and entity, algorithm, length, PCOMP / DCOMP
values, applicable NSAPIs, parameters (TS 44.065, figures 7 and 9). -/
def Proposal.bytes (x : Proposal) : Octets :=
  let rest := halves x.comps ++ (two x.nsapiMap ++ x.alg.bytes)
  UInt8.ofNat (128 + x.entity) :: UInt8.ofNat x.alg.number :: UInt8.ofNat rest.length :: rest

/-- Coding of an answer to a proposal: the P bit is 0, algorithm and PCOMP / DCOMP values are left
out (TS 44.065, 6.5.1.1 and figure 8). -/
def Proposal.answerBytes (x : Proposal) : Octets :=
  let rest := two x.nsapiMap ++ x.alg.bytes
  UInt8.ofNat x.entity :: UInt8.ofNat rest.length :: rest

/-- A proposal is refused by answering it without any NSAPI. -/
def Proposal.refused (x : Proposal) : Proposal := { x with applies := fun _ => false }

/-- All fields of a parameter. -/
def fieldBytes (xs : List Proposal) : Octets := xs.flatMap Proposal.bytes

/-- One XID parameter: type, length, value; nothing for an empty list of fields. -/
def parameter (type : Nat) (v : Octets) : Octets :=
  if v = [] then [] else UInt8.ofNat type :: UInt8.ofNat v.length :: v

/-- The version number parameter, if there is one. -/
def versionBytes : Option Nat → Octets
  | some v => parameter 0 (one v)
  | none => []

/-- The SNDCP XID block: version number, data compression, header compression (TS 44.065, 8). -/
def xidBlock (version : Option Nat) (xs : List Proposal) : Octets :=
  versionBytes version ++
    parameter 1 (fieldBytes (xs.filter (fun x => !x.alg.isHeader))) ++
    parameter 2 (fieldBytes (xs.filter (fun x => x.alg.isHeader)))

/-- What is answered to a proposal. -/
def answerTo (accept : Proposal → Bool) (x : Proposal) : Proposal :=
  if accept x then x else x.refused

/-- All answers of a parameter. -/
def answerFields (accept : Proposal → Bool) (xs : List Proposal) : Octets :=
  xs.flatMap (fun x => (answerTo accept x).answerBytes)

/-- The answer to an XID block: version 0 and an answer to every proposal. -/
def answerBlock (accept : Proposal → Bool) (xs : List Proposal) : Octets :=
  parameter 0 (one 0) ++
    parameter 1 (answerFields accept (xs.filter (fun x => !x.alg.isHeader))) ++
    parameter 2 (answerFields accept (xs.filter (fun x => x.alg.isHeader)))

end Verif.Spec.SndcpXid
