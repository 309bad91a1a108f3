import Verif.Basic

/-!
# Header compression (RFC 1144), /repo/src/sndcp/slhc.c and /repo/src/sndcp/sndcp_pcomp.c

Accesses outside an array or buffer, the use of a null pointer and endless loops are distinct outcomes.  The counters of
`struct slcompress` are left out: nothing depends on them.  Numbers of a header are in host order.
-/
namespace Verif.Slhc

/-- What can go wrong. -/
inductive SFault where
  | bounds | null | hang
  deriving DecidableEq, Repr

/-- Outcome of a function. -/
inductive SRes (α : Type) where
  | ok (a : α)
  | ub (f : SFault)
  deriving DecidableEq, Repr

/-- Sequencing. -/
def SRes.bind {α β : Type} (r : SRes α) (f : α → SRes β) : SRes β :=
  match r with
  | .ok a => f a
  | .ub u => .ub u

instance : Monad SRes where
  pure := .ok
  bind := SRes.bind

/-! ## Headers -/

/-- The number of 16 bits at a position, most significant octet first. -/
def get16 (l : List UInt8) (i : Nat) : UInt16 := UInt16.ofNat ((l.getD i 0).toNat * 256 + (l.getD (i + 1) 0).toNat)

/-- The number of 32 bits at a position. -/
def get32 (l : List UInt8) (i : Nat) : UInt32 := UInt32.ofNat ((get16 l i).toNat * 65536 + (get16 l (i + 2)).toNat)

/-- Two octets, as `put16`, /repo/src/sndcp/slhc.c:189-197. -/
def put16 (x : UInt16) : List UInt8 := [UInt8.ofNat (x.toNat / 256), UInt8.ofNat x.toNat]

/-- Four octets. -/
def put32 (x : UInt32) : List UInt8 := put16 (UInt16.ofNat (x.toNat / 65536)) ++ put16 (UInt16.ofNat x.toNat)

/-- `struct iphdr` of linux/ip.h; the first octet has version and length. -/
structure Ip where
  vihl : UInt8
  tos : UInt8
  len : UInt16
  ident : UInt16
  frag : UInt16
  ttl : UInt8
  proto : UInt8
  check : UInt16
  saddr : UInt32
  daddr : UInt32
  deriving DecidableEq, Repr

/-- `struct tcphdr` of linux/tcp.h; `off` has the length and four reserved bits. -/
structure Tcp where
  source : UInt16
  dest : UInt16
  seq : UInt32
  ack : UInt32
  off : UInt8
  flags : UInt8
  window : UInt16
  check : UInt16
  urp : UInt16
  deriving DecidableEq, Repr

/-- A header read from a packet. -/
def Ip.read (l : List UInt8) : Ip :=
  ⟨l.getD 0 0, l.getD 1 0, get16 l 2, get16 l 4, get16 l 6, l.getD 8 0, l.getD 9 0, get16 l 10, get32 l 12, get32 l 16⟩

/-- A header written to a packet. -/
def Ip.bytes (h : Ip) : List UInt8 :=
  [h.vihl, h.tos] ++ put16 h.len ++ put16 h.ident ++ put16 h.frag ++ [h.ttl, h.proto] ++ put16 h.check ++ put32 h.saddr ++ put32 h.daddr

/-- A header read from a packet. -/
def Tcp.read (l : List UInt8) : Tcp :=
  ⟨get16 l 0, get16 l 2, get32 l 4, get32 l 8, l.getD 12 0, l.getD 13 0, get16 l 14, get16 l 16, get16 l 18⟩

/-- A header written to a packet. -/
def Tcp.bytes (h : Tcp) : List UInt8 :=
  put16 h.source ++ put16 h.dest ++ put32 h.seq ++ put32 h.ack ++ [h.off, h.flags] ++ put16 h.window ++ put16 h.check ++ put16 h.urp

/-- `version`. -/
def Ip.version (h : Ip) : Nat := h.vihl.toNat / 16
/-- `ihl`. -/
def Ip.ihl (h : Ip) : Nat := h.vihl.toNat % 16
/-- `doff`. -/
def Tcp.doff (h : Tcp) : Nat := h.off.toNat / 16

/-- A bit of the flags: FIN 1, SYN 2, RST 4, PSH 8, ACK 16, URG 32, ECE 64, CWR 128. -/
def flag (f m : UInt8) : Bool := f &&& m != 0

/-- A bit of the flags is set or cleared. -/
def setFlag (f m : UInt8) (b : Bool) : UInt8 := if b then f ||| m else f &&& ~~~m

/-- `ip_fast_csum` before the complement, over these octets, /repo/src/sndcp/slhc.c:79-93. -/
def csumAcc : Nat → List UInt8 → Nat
  | acc, a :: b :: l => csumAcc (if 65535 < acc + (a.toNat * 256 + b.toNat) then (acc + (a.toNat * 256 + b.toNat) + 1) % 65536
      else acc + (a.toNat * 256 + b.toNat)) l
  | acc, _ => acc

/-- `ip_fast_csum` of a header, as a number in host order, /repo/src/sndcp/slhc.c:75-96. -/
def csum (hdr : List UInt8) : UInt16 := ~~~ UInt16.ofNat (csumAcc 65535 hdr)

/-! ## State -/

/-- `struct cstate` without the links, /repo/include/osmocom/gprs/sndcp/slhc.h:128-136. -/
structure Cs where
  ip : Ip
  tcp : Tcp
  ipopt : List UInt8
  tcpopt : List UInt8
  deriving DecidableEq, Repr

/-- A slot as `talloc_zero_size` leaves it, /repo/src/sndcp/slhc.c:125 and 133. -/
def Cs.zero : Cs := ⟨⟨0, 0, 0, 0, 0, 0, 0, 0, 0, 0⟩, ⟨0, 0, 0, 0, 0, 0, 0, 0, 0⟩, List.replicate 64 0, List.replicate 64 0⟩

/-- The sending half of `struct slcompress`, /repo/include/osmocom/gprs/sndcp/slhc.h:142-155: `n` slots, `next` their ring,
`oldest` is `xmit_oldest`.  `cs_this` is the number of the slot.  `xmit_current` is left out: with `compress_cid` 0
(/repo/src/sndcp/sndcp_pcomp.c:104) it does not matter. -/
structure Tx where
  n : Nat
  cs : Nat → Cs
  next : Nat → Nat
  oldest : Nat

/-- The receiving half: `recv` is `recv_current`, `toss` the flag `SLF_TOSS`. -/
structure Rx where
  n : Nat
  cs : Nat → Cs
  recv : Nat
  toss : Bool

/-- `slhc_init` for the sender, /repo/src/sndcp/slhc.c:131-158. -/
def Tx.init (slots : Nat) : Tx := ⟨slots, fun _ => Cs.zero, fun i => if i = 0 then slots - 1 else i - 1, 0⟩

/-- `slhc_init` for the receiver, /repo/src/sndcp/slhc.c:123-129 and 141-148. -/
def Rx.init (slots : Nat) : Rx := ⟨slots, fun _ => Cs.zero, 255, true⟩

/-- `gprs_sndcp_pcomp_init` with S0-1 from the negotiation, /repo/src/sndcp/sndcp_pcomp.c:50-58 and
/repo/src/sndcp/slhc.c:116-117: nothing (a null pointer) with more than 255 slots. -/
def initBoth (s01 : Nat) : Option (Tx × Rx) := if 255 < s01 + 1 then none else some (Tx.init (s01 + 1), Rx.init (s01 + 1))

/-- `memcpy` over the beginning of a buffer. -/
def over (old new : List UInt8) : List UInt8 := new ++ old.drop new.length

/-! ## Compression -/

/-- `encode`, /repo/src/sndcp/slhc.c:200-213. -/
def encode (x : UInt16) : List UInt8 := if 256 ≤ x.toNat ∨ x = 0 then 0 :: put16 x else [UInt8.ofNat x.toNat]

/-- The loop that looks for the connection, /repo/src/sndcp/slhc.c:317-330: whether it was found, `lcs` and `cs`. -/
def search (t : Tx) (ip : Ip) (th : Tcp) : Nat → Nat → Nat → SRes (Bool × Nat × Nat)
  | 0, _, _ => .ub .hang
  | n + 1, lcs, cs =>
    if t.n ≤ cs then .ub .bounds
    else if ip.saddr = (t.cs cs).ip.saddr ∧ ip.daddr = (t.cs cs).ip.daddr ∧ th.source = (t.cs cs).tcp.source ∧
        th.dest = (t.cs cs).tcp.dest then .ok (true, lcs, cs)
    else if cs = t.oldest then .ok (false, lcs, cs)
    else search t ip th n cs (t.next cs)

/-- A slot that was found is moved to the front, /repo/src/sndcp/slhc.c:351-361. -/
def Tx.front (t : Tx) (lcs cs : Nat) : Tx :=
  if lcs = t.oldest then t
  else if cs = t.oldest then { t with oldest := lcs }
  else { t with next := fun i => if i = t.oldest then cs else if i = cs then t.next t.oldest else if i = lcs then t.next cs else t.next i }

/-- What must not change, /repo/src/sndcp/slhc.c:410-416. -/
def sameShape (ip : Ip) (th : Tcp) (ipopt tcpopt : List UInt8) (c : Cs) : Bool :=
  ip.version = c.ip.version ∧ ip.ihl = c.ip.ihl ∧ ip.tos = c.ip.tos ∧ ip.frag &&& 0x4000 = c.ip.frag &&& 0x4000 ∧ ip.ttl = c.ip.ttl ∧
  th.doff = c.tcp.doff ∧ (5 < ip.ihl → ipopt = c.ipopt.take ipopt.length) ∧ (5 < th.doff → tcpopt = c.tcpopt.take tcpopt.length)

/-- The change of the identification and the PUSH bit, /repo/src/sndcp/slhc.c:504-513. -/
def addIdent (ip : Ip) (th : Tcp) (c : Cs) (r : Nat × List UInt8) : Nat × List UInt8 :=
  if ip.ident.toNat ≠ c.ip.ident.toNat + 1 then
    (r.1 + 0x20 + (if flag th.flags 8 then 0x10 else 0), r.2 ++ encode (ip.ident - c.ip.ident))
  else (r.1 + (if flag th.flags 8 then 0x10 else 0), r.2)

/-- The changes and their list, /repo/src/sndcp/slhc.c:427-503; none if the packet has to be sent uncompressed.  NEW_U is 1,
NEW_W 2, NEW_A 4, NEW_S 8; SPECIAL_I is 11 and SPECIAL_D 15. -/
def deltas (ip : Ip) (th : Tcp) (c : Cs) (hlen : Nat) : Option (Nat × List UInt8) :=
  let o := c.tcp
  let w := th.window - o.window
  let a := th.ack - o.ack
  let s := th.seq - o.seq
  if flag th.flags 32 = false ∧ th.urp ≠ o.urp then none
  else if 65535 < a.toNat ∨ 65535 < s.toNat then none
  else
    let changes := (if flag th.flags 32 then 1 else 0) + (if w ≠ 0 then 2 else 0) + (if a ≠ 0 then 4 else 0) + (if s ≠ 0 then 8 else 0)
    let l := (if flag th.flags 32 then encode th.urp else []) ++ (if w ≠ 0 then encode w else []) ++
      (if a ≠ 0 then encode (UInt16.ofNat a.toNat) else []) ++ (if s ≠ 0 then encode (UInt16.ofNat s.toNat) else [])
    if changes = 0 then
      if ip.len ≠ c.ip.len ∧ c.ip.len.toNat = hlen then some (0, []) else none
    else if changes = 11 ∨ changes = 15 then none
    else if changes = 12 ∧ s = a ∧ s.toNat + hlen = c.ip.len.toNat then some (11, [])
    else if changes = 8 ∧ s.toNat + hlen = c.ip.len.toNat then some (15, [])
    else some (changes, l)

/-- The slot is overwritten, /repo/src/sndcp/slhc.c:558-563. -/
def Cs.memorize (c : Cs) (ip : Ip) (th : Tcp) (ipopt tcpopt : List UInt8) : Cs :=
  ⟨ip, th, if 5 < ip.ihl then over c.ipopt ipopt else c.ipopt, if 5 < th.doff then over c.tcpopt tcpopt else c.tcpopt⟩

/-- One slot is replaced. -/
def setSlot (f : Nat → Cs) (i : Nat) (c : Cs) : Nat → Cs := fun j => if j = i then c else f j

/-- The first octet of a buffer gets some bits. -/
def orHead (l : List UInt8) (m : UInt8) : List UInt8 :=
  match l with
  | [] => []
  | a :: l => (a ||| m) :: l

/-- The uncompressed packet with the number of the slot, /repo/src/sndcp/slhc.c:556-570. -/
def Tx.uncompressed (t : Tx) (cs : Nat) (ip : Ip) (th : Tcp) (ipopt tcpopt p : List UInt8) : Tx × List UInt8 :=
  ({ t with cs := setSlot t.cs cs ((t.cs cs).memorize ip th ipopt tcpopt) }, orHead (p.set 9 (UInt8.ofNat cs)) 0x70)

/-- `slhc_compress` of packet `p`: what is in the output buffer (a copy of the packet before), /repo/src/sndcp/slhc.c:248-571.
The octets of the TCP header are taken as accessed if any but the first 14 is. -/
def Tx.compress (t : Tx) (p : List UInt8) : SRes (Tx × List UInt8) :=
  if t.n = 0 then .ub .null
  else if p.length < 20 then .ok (t, p)
  else
    let ip := Ip.read p
    if ip.proto ≠ 6 ∨ ip.frag &&& 0x3fff ≠ 0 then .ok (t, p)
    else
      let q := p.drop (ip.ihl * 4)
      let th := Tcp.read q
      let hlen := ip.ihl * 4 + th.doff * 4
      if q.length < 13 then .ub .bounds
      else if p.length < hlen then .ok (t, p)
      else if q.length < 14 then .ub .bounds
      else if flag th.flags 2 ∨ flag th.flags 1 ∨ flag th.flags 4 ∨ flag th.flags 16 = false then .ok (t, p)
      else if q.length < 20 then .ub .bounds
      else do
        let ipopt := (p.drop 20).take ((ip.ihl - 5) * 4)
        let tcpopt := (q.drop 20).take ((th.doff - 5) * 4)
        let (found, lcs, cs) ← search t ip th (t.n + 1) t.oldest (t.next t.oldest)
        if found then
          let t' := t.front lcs cs
          if sameShape ip th ipopt tcpopt (t.cs cs) then
            match deltas ip th (t.cs cs) hlen with
            | none => .ok (t'.uncompressed cs ip th ipopt tcpopt p)
            | some r =>
              let (changes, l) := addIdent ip th (t.cs cs) r
              let out := [UInt8.ofNat (changes + 0x40 + 0x80), UInt8.ofNat cs] ++ put16 th.check ++ l ++ p.drop hlen
              if p.length < out.length then .ub .bounds
              else .ok ({ t' with cs := setSlot t'.cs cs { (t'.cs cs) with ip := ip, tcp := th } }, out)
          else .ok (t'.uncompressed cs ip th ipopt tcpopt p)
        else .ok ({ t with oldest := lcs }.uncompressed cs ip th ipopt tcpopt p)

/-- `rfc1144_compress`: the index and the data, /repo/src/sndcp/sndcp_pcomp.c:91-121. -/
def Tx.packet (t : Tx) (p : List UInt8) : SRes (Tx × Nat × List UInt8) := do
  let (t, o) ← t.compress p
  match o with
  | [] => .ub .bounds
  | a :: l =>
    if a &&& 0x80 ≠ 0 then .ok (t, 2, (a &&& 0x7f) :: l)
    else if a &&& 0x70 = 0x70 then .ok (t, 1, (a &&& 0x4f) :: l)
    else .ok (t, 0, p)

/-! ## Expansion

The packet is the first octets of a buffer that has room for more. -/

/-- `decode`, /repo/src/sndcp/slhc.c:227-239: a number, and where it ends. -/
def decode (b : List UInt8) (i : Nat) : SRes (UInt16 × Nat) :=
  if b.length ≤ i then .ub .bounds
  else if b.getD i 0 = 0 then if b.length ≤ i + 2 then .ub .bounds else .ok (get16 b (i + 1), i + 3)
  else .ok (UInt16.ofNat (b.getD i 0).toNat, i + 1)

/-- A number that is there if this bit of `changes` is set. -/
def decodeIf (bit : Bool) (b : List UInt8) (i : Nat) : SRes (UInt16 × Nat) := if bit then decode b i else .ok (0, i)

/-- By how much the identification grows, /repo/src/sndcp/slhc.c:675-681. -/
def identStep (bit : Bool) (b : List UInt8) (i : Nat) : SRes (UInt16 × Nat) := if bit then decode b i else .ok (1, i)

/-- Octets are written into a buffer. -/
def write (b : List UInt8) (i : Nat) (l : List UInt8) : SRes (List UInt8) :=
  if i + l.length ≤ b.length then .ok (b.take i ++ l ++ b.drop (i + l.length)) else .ub .bounds

/-- The header with the changes, /repo/src/sndcp/slhc.c:627-674, and where the list goes on. -/
def applyChanges (changes : UInt8) (c : Cs) (b : List UInt8) (i : Nat) : SRes (Tcp × Nat) :=
  let th := c.tcp
  let hdrlen := c.ip.ihl * 4 + th.doff * 4
  if changes &&& 15 = 11 then
    let d := (c.ip.len.toNat + 65536 - hdrlen) % 65536
    let x := UInt32.ofNat (if d < 32768 then d else d + 4294901760)
    .ok ({ th with ack := th.ack + x, seq := th.seq + x }, i)
  else if changes &&& 15 = 15 then
    .ok ({ th with seq := th.seq + UInt32.ofNat c.ip.len.toNat - UInt32.ofNat hdrlen }, i)
  else do
    let (u, i) ← decodeIf (flag changes 1) b i
    let (w, i) ← decodeIf (flag changes 2) b i
    let (a, i) ← decodeIf (flag changes 4) b i
    let (s, i) ← decodeIf (flag changes 8) b i
    .ok ({ th with flags := setFlag th.flags 32 (flag changes 1), urp := if flag changes 1 then u else th.urp,
                   window := th.window + w, ack := th.ack + UInt32.ofNat a.toNat, seq := th.seq + UInt32.ofNat s.toNat }, i)

/-- The packet is put together, /repo/src/sndcp/slhc.c:689-719: `size` octets of the buffer from `i` on are data. -/
def rebuild (c : Cs) (b : List UInt8) (i size : Nat) : SRes (List UInt8) := do
  let hdrlen := c.ip.ihl * 4 + c.tcp.doff * 4
  let b ← write b hdrlen ((b.drop i).take size)
  let hdr := c.ip.bytes ++ c.ipopt.take ((c.ip.ihl - 5) * 4)
  let b ← write b 0 hdr
  let b ← write b 10 (put16 (csum (b.take (c.ip.ihl * 4))))
  let b ← write b hdr.length (c.tcp.bytes ++ c.tcpopt.take ((c.tcp.doff - 5) * 4))
  .ok (b.take (size + hdrlen))

/-- The end of `slhc_uncompress` for a slot and with the bits of `changes`, /repo/src/sndcp/slhc.c:611-723; `i` is the
position of the checksum.  The slot keeps the changes even if the packet turns out to be too short. -/
def Rx.withSlot (r : Rx) (changes : UInt8) (b : List UInt8) (n i : Nat) : SRes (Rx × List UInt8) :=
  if r.n = 0 then .ub .null
  else if r.n ≤ r.recv then .ub .bounds
  else if b.length < i + 2 then .ub .bounds
  else do
    let c := r.cs r.recv
    let c := { c with tcp := { c.tcp with check := get16 b i, flags := setFlag c.tcp.flags 8 (flag changes 16) } }
    let (th, i) ← applyChanges changes c b (i + 2)
    let (x, i) ← identStep (flag changes 32) b i
    let ip := { c.ip with ident := c.ip.ident + x }
    if n < i then .ok ({ r with cs := setSlot r.cs r.recv { c with ip := ip, tcp := th }, toss := true }, [])
    else do
      let c := { c with ip := { ip with len := UInt16.ofNat (n - i + (ip.ihl * 4 + th.doff * 4)), check := 0 }, tcp := th }
      let p ← rebuild c b i (n - i)
      .ok ({ r with cs := setSlot r.cs r.recv c }, p)

/-- `slhc_uncompress` of the first `n` octets of a buffer: the packet, which is empty if the function returns 0,
/repo/src/sndcp/slhc.c:574-724. -/
def Rx.uncompress (r : Rx) (b : List UInt8) (n : Nat) : SRes (Rx × List UInt8) :=
  if n < 3 then .ok (r, [])
  else if flag (b.getD 0 0) 64 then
    if r.n ≤ (b.getD 1 0).toNat ∧ (b.getD 1 0).toNat ≠ 0 then .ok ({ r with toss := true }, [])
    else { r with toss := false, recv := (b.getD 1 0).toNat }.withSlot (b.getD 0 0) b n 2
  else if r.toss then .ok (r, [])
  else r.withSlot (b.getD 0 0) b n 1

/-- `slhc_remember`, /repo/src/sndcp/slhc.c:727-779.  The octets of the header are taken as accessed at once. -/
def Rx.remember (r : Rx) (b : List UInt8) (n : Nat) : SRes (Rx × List UInt8) :=
  if n < 20 then .ok ({ r with toss := true }, [])
  else
    let ihl := (b.getD 0 0).toNat % 16
    let index := (b.getD 9 0).toNat
    if ihl < 5 then .ok ({ r with toss := true }, [])
    else
      let b := b.set 9 6
      if b.length < ihl * 4 then .ub .bounds
      else if csum (b.take (ihl * 4)) ≠ 0 then .ok ({ r with toss := true }, [])
      else if r.n ≤ index ∧ index ≠ 0 then .ok ({ r with toss := true }, [])
      else if r.n = 0 then .ub .null
      else
        let q := b.drop (ihl * 4)
        let ip := Ip.read b
        let th := Tcp.read q
        if q.length < 20 ∨ q.length < th.doff * 4 then .ub .bounds
        else .ok ({ r with recv := index, toss := false,
                           cs := setSlot r.cs index ((r.cs index).memorize ip th ((b.drop 20).take ((ihl - 5) * 4))
                             ((q.drop 20).take ((th.doff - 5) * 4))) }, b.take n)

/-- `rfc1144_expand` of the first `n` octets of a buffer, /repo/src/sndcp/sndcp_pcomp.c:123-171. -/
def Rx.packet (r : Rx) (b : List UInt8) (n index : Nat) : SRes (Rx × List UInt8) :=
  if index = 1 then
    match b with
    | [] => .ub .bounds
    | a :: l => r.remember ((a &&& 0x4f) :: l) n
  else if index = 2 then r.uncompress b n
  else .ok (r, b.take n)

end Verif.Slhc
