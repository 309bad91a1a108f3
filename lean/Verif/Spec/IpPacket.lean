import Verif.Basic

/-!
# Specification: IPv4 packets with and without TCP segments, RFC 791 and RFC 793

In terms of the octets of a packet only.
-/
namespace Verif.Spec.IpPacket

/-- The octet at a position. -/
def octet (p : List UInt8) (i : Nat) : Nat := (p.getD i 0).toNat

/-- The number in two octets. -/
def word (p : List UInt8) (i : Nat) : Nat := octet p i * 256 + octet p (i + 1)

/-- The number in four octets. -/
def long (p : List UInt8) (i : Nat) : Nat := word p i * 65536 + word p (i + 2)

/-- Octets of the IP header with its options. -/
def ipLen (p : List UInt8) : Nat := 4 * (octet p 0 % 16)

/-- Octets of the TCP header with its options. -/
def tcpLen (p : List UInt8) : Nat := 4 * (octet p (ipLen p + 12) / 16)

/-- The sum of the words of the IP header. -/
def headerSum (p : List UInt8) : Nat := ((List.range (ipLen p / 2)).map fun i => word p (2 * i)).sum

/-- A packet with a whole TCP segment: protocol 6, no fragment. -/
def IsTcp (p : List UInt8) : Prop := octet p 9 = 6 ∧ word p 6 % 16384 = 0

/-- A well-formed IPv4 packet.  The header's checksum is the one that makes the sum of all words a multiple of 65535; of its two
forms 0 and 65535 the packet has the usual one, 0. -/
def WellFormed (p : List UInt8) : Prop :=
  octet p 0 / 16 = 4 ∧ 20 ≤ ipLen p ∧ ipLen p ≤ p.length ∧ word p 2 = p.length ∧ headerSum p % 65535 = 0 ∧ word p 10 ≠ 65535 ∧
  (IsTcp p → 20 ≤ tcpLen p ∧ ipLen p + tcpLen p ≤ p.length)

/-- The connection of a segment: addresses and ports. -/
def connection (p : List UInt8) : Nat × Nat × Nat × Nat := (long p 12, long p 16, word p (ipLen p), word p (ipLen p + 2))

/-- Is the segment marked urgent? -/
def Urgent (p : List UInt8) : Prop := octet p (ipLen p + 13) / 32 % 2 = 1

/-- The reserved bit of the IP header, the four reserved bits of the TCP header, and the two bits of congestion control in the
TCP header. -/
def marks (p : List UInt8) : Nat × Nat × Nat := (word p 6 / 32768, octet p (ipLen p + 12) % 16, octet p (ipLen p + 13) / 64)

/-- Octets of data of a segment. -/
def dataLen (p : List UInt8) : Nat := p.length - (ipLen p + tcpLen p)

/-- The number of a slot in what is sent with index 1 (in place of the protocol) and with index 2 (after the first octet). -/
def slotOf (index : Nat) (o : List UInt8) : Nat := octet o (if index = 1 then 9 else 1)

instance (p : List UInt8) : Decidable (IsTcp p) := by unfold IsTcp; infer_instance
instance (p : List UInt8) : Decidable (WellFormed p) := by unfold WellFormed; infer_instance
instance (p : List UInt8) : Decidable (Urgent p) := by unfold Urgent; infer_instance

end Verif.Spec.IpPacket
