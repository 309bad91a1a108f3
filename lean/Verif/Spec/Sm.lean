import Verif.Basic
/-!
# Session management: what the standard says

TS 24.008 9.5.1 (ACTIVATE PDP CONTEXT REQUEST), 10.5.6.4 (packet data protocol address).
-/
namespace Verif.Spec.Sm

/-- The addresses inside a packet data protocol address. -/
structure Addr where
  ty : Nat
  v4 : Option Octets
  v6 : Option Octets
  deriving DecidableEq, Repr

/-- 10.5.6.4: the value part of the element, from its third octet on, for an address of the given IETF
type (0x21 IPv4, 0x57 IPv6, 0x8D IPv4v6).  An IPv4v6 address holds an IPv4 address, an IPv6 address, or an
IPv4 address followed by an IPv6 address. -/
def addrInfo (ty : Nat) (info : Octets) : Option Addr :=
  if ty = 0x21 then
    if info.length = 0 then some ⟨ty, none, none⟩
    else if info.length = 4 then some ⟨ty, some info, none⟩ else none
  else if ty = 0x57 then
    if info.length = 0 then some ⟨ty, none, none⟩
    else if info.length = 16 then some ⟨ty, none, some info⟩ else none
  else if ty = 0x8D then
    if info.length = 0 then some ⟨ty, none, none⟩
    else if info.length = 4 then some ⟨ty, some info, none⟩
    else if info.length = 16 then some ⟨ty, none, some info⟩
    else if info.length = 20 then some ⟨ty, some (info.take 4), some (info.drop 4)⟩
    else none
  else none

/-- 10.5.6.4: the whole value; organisation 1 (low half of the first octet) is the IETF. -/
def address : Octets → Option Addr
  | org :: ty :: info => if org.toNat % 16 = 1 then addrInfo ty.toNat info else none
  | _ => none

/-- An address that its type can express. -/
def Addr.Expressible (a : Addr) : Prop :=
  (a.ty = 0x21 ∧ a.v6 = none ∨ a.ty = 0x57 ∧ a.v4 = none ∨ a.ty = 0x8D) ∧
  (∀ x, a.v4 = some x → x.length = 4) ∧ (∀ x, a.v6 = some x → x.length = 16)

/-- What an ACTIVATE PDP CONTEXT REQUEST asks for. -/
structure Request where
  /-- the transaction identifier half octet -/
  ti : Nat
  nsapi : Nat
  sapi : Nat
  qos : Octets
  addr : Octets
  apn : Option Octets
  pco : Option Octets
  deriving DecidableEq, Repr

/-- A length octet followed by that many octets: the value and what follows. -/
def takeLv : Octets → Option (Octets × Octets)
  | [] => none
  | l :: b => if b.length < l.toNat then none else some (b.take l.toNat, b.drop l.toNat)

/-- An optional element with this tag in front of `b`. -/
def takeOpt (tag : UInt8) (b : Octets) : Option (Option Octets × Octets) :=
  match b with
  | [] => some (none, [])
  | t :: r =>
    if t = tag then
      match takeLv r with
      | some (v, rest) => some (some v, rest)
      | none => none
    else some (none, b)

/-- 9.5.1: protocol discriminator 10 and transaction identifier, message type 0x41, NSAPI, LLC SAPI,
QoS (LV), PDP address (LV), access point name (tag 0x28), protocol configuration options (tag 0x27). -/
def readRequest (b : Octets) : Option Request :=
  match b with
  | hd :: ty :: nsapi :: sapi :: r1 =>
    if hd.toNat % 16 = 10 ∧ ty.toNat = 0x41 then
      match takeLv r1 with
      | none => none
      | some (qos, r2) =>
        match takeLv r2 with
        | none => none
        | some (addr, r3) =>
          match takeOpt 0x28 r3 with
          | none => none
          | some (apn, r4) =>
            match takeOpt 0x27 r4 with
            | some (pco, []) => some ⟨hd.toNat / 16, nsapi.toNat, sapi.toNat, qos, addr, apn, pco⟩
            | _ => none
    else none
  | _ => none

/-- An access point name on the wire (TS 23.003 9.1): labels, each after its length. -/
def labels : Nat → Octets → Option (List Octets)
  | _, [] => some []
  | 0, _ => none
  | n + 1, l :: b =>
    if b.length < l.toNat then none
    else
      match labels n (b.drop l.toNat) with
      | some r => some (b.take l.toNat :: r)
      | none => none

/-- Split a name at its dots. -/
def splitDots (cur : Octets) : Octets → List Octets
  | [] => [cur]
  | x :: s => if x = 0x2e then cur :: splitDots [] s else splitDots (cur ++ [x]) s

end Verif.Spec.Sm

namespace Verif.Spec.Sm

/-- What the user of one PDP context sees of its activation. -/
inductive Mark where
  /-- an activation request was taken -/
  | asked
  /-- a confirmation arrived -/
  | told (accepted : Bool)
  deriving DecidableEq, Repr

/-- Requests and confirmations alternate: whether an answer is owed at the end, or `none` if a confirmation
came that nobody waited for or a request was taken while the answer to an earlier one was owed. -/
def owed : Bool → List Mark → Option Bool
  | w, [] => some w
  | false, .asked :: l => owed true l
  | true, .told _ :: l => owed false l
  | _, _ => none

/-- No confirmation without a request before it, and no second one. -/
def NoSurplus : Bool → List Mark → Prop
  | _, [] => True
  | _, .asked :: l => NoSurplus true l
  | w, .told _ :: l => w = true ∧ NoSurplus false l

/-- What the lower layer sees of one activation. -/
inductive Try where
  /-- the first attempt -/
  | first
  /-- another attempt -/
  | again
  deriving DecidableEq, Repr

/-- After each first attempt, at most `max - 1` further ones; `k` attempts have been made. -/
def TriesAtMost (max : Nat) : Nat → List Try → Prop
  | _, [] => True
  | _, .first :: l => TriesAtMost max 1 l
  | k, .again :: l => k < max ∧ TriesAtMost max (k + 1) l

/-- TS 24.008 10.5.7.1 PDP context status: bit `n` of the two octets says whether NSAPI `n` is active. -/
def statusActive (o1 o2 : UInt8) (n : Nat) : Bool := if n < 8 then o1.toNat.testBit n else o2.toNat.testBit (n - 8)

end Verif.Spec.Sm
