import Verif.Basic
/-!
# SNDCP unacknowledged data transfer: segmentation and reassembly

Models /repo/src/sndcp/sndcp.c (`gprs_sndcp_send_ud_frag`, `gprs_sndcp_sne_handle_sn_unitdata_req`,
`defrag_*`, `gprs_sndcp_sne_handle_llc_ll_unitdata_ind`) and the checks in front of the last one in
/repo/src/sndcp/sndcp_prim.c.

Simplifications, for the whole file: memory allocations of the sizes that occur here succeed; log
output is dropped; compression is absent because `any_pcomp_or_dcomp_active` (sndcp.c:263-273)
always returns false; the return value of the user's up callback is not tracked.  The primitive
header allocated for an indication (sndcp_prim.c:127-139) is not counted in the message size.
-/
namespace Verif.Sndcp

/-! ## Buffers -/

/-- `unsigned int` subtraction (32 bits, wrapping), as used for `max_payload_len` and
`len - (data - hdr)` (sndcp.c:507, 579-581). -/
def u32Sub (a b : Nat) : Nat := (a + 4294967296 - b % 4294967296) % 4294967296

/-- `size_t` subtraction (64 bits, wrapping), as used in the fragmentation test (sndcp.c:683-684). -/
def sizeSub (a b : Nat) : Nat := (a + 18446744073709551616 - b) % 18446744073709551616

/-- Can `len` octets be put into a fresh `msgb_alloc_headroom(size, headroom)`?  The size of a
message buffer is a `uint16_t` (libosmocore msgb.h), a bigger value is truncated; `msgb_put`
aborts when the tailroom is too small.  (sndcp.c:400/418, 548-593, 636-638.) -/
def msgbFits (size headroom len : Nat) : Bool := headroom + len ≤ size % 65536

/-! ## Transmitter -/

/-- `struct sndcp_common_hdr` (sndcp_private.h:28-41) as an octet; `spare` stays 0 because message
buffers are zero initialised (libosmocore `msgb_alloc`). -/
def comHdr (nsapi : Nat) (more first : Bool) : UInt8 :=
  UInt8.ofNat (nsapi % 16 + (if more then 16 else 0) + 32 + (if first then 64 else 0))

/-- `struct sndcp_comp_hdr` (sndcp_private.h:44-53) as an octet. -/
def compHdr (pcomp dcomp : Nat) : UInt8 := UInt8.ofNat (pcomp % 16 + dcomp % 16 * 16)

/-- `struct sndcp_udata_hdr` (sndcp_private.h:55-66) as two octets, filled in as at sndcp.c:572-574
and 705-707. -/
def udataHdr (npdu seg : Nat) : Octets :=
  [UInt8.ofNat (npdu / 256 % 16 + seg % 16 * 16), UInt8.ofNat (npdu % 256)]

/-- The parts of `struct gprs_sndcp_entity` used for sending (sndcp_private.h:147-183). -/
structure TxEnt where
  nsapi : Nat
  n201u : Nat
  txNpdu : Nat
  deriving DecidableEq, Repr

/-- How the handling of an SN-UNITDATA.req ended. -/
inductive TxEnd where
  /-- everything was accepted by LLC -/
  | done
  /-- LLC refused a PDU, its error is returned -/
  | refused
  /-- still looping after as many rounds as the model allows (never happens, see
  `c40_segments_partial`) -/
  | looping
  deriving DecidableEq, Repr

/-- Effect of an SN-UNITDATA.req: the PDUs handed to LLC in order, how it ended and the entity
afterwards. -/
structure TxOut where
  sent : List Octets
  how : TxEnd
  ent : TxEnt
  deriving DecidableEq, Repr

/-- The payload bound of a fragment, `max_payload_len` (sndcp.c:579-581). -/
def maxPayload (n201u : Nat) (first : Bool) : Nat :=
  let m := u32Sub n201u 3
  if first then u32Sub m 1 else m

/-- The SN-PDU built for fragment number `fragNr` (the `uint8_t` counter) when the octets `rest`
are still to be sent: the payload length and the PDU (sndcp.c:554-602). -/
def fragPdu (e : TxEnt) (fragNr : Nat) (rest : Octets) : Nat × Octets :=
  let first := fragNr == 0
  let len := if rest.length > maxPayload e.n201u first then maxPayload e.n201u first
    else rest.length
  let more := len < rest.length
  (len, comHdr e.nsapi more first :: ((if first then [compHdr 0 0] else []) ++
    udataHdr e.txNpdu (fragNr % 15) ++ rest.take len))

/-- The loop of `gprs_sndcp_sne_handle_sn_unitdata_req` around `gprs_sndcp_send_ud_frag`
(sndcp.c:693-699, 535-623).  `acc i` tells whether LLC accepts the i-th PDU of this request. -/
def sendFrags (acc : Nat → Bool) (e : TxEnt) : Nat → Nat → Nat → Octets → Res TxOut
  | 0, _, _, _ => .ok ⟨[], .looping, e⟩
  | fuel + 1, i, fragNr, rest =>
    let p := fragPdu e fragNr rest
    if !msgbFits (e.n201u + 256) 128 p.2.length then .ub .assertFail
    else if !acc i then .ok ⟨[p.2], .refused, e⟩
    else if rest.length ≤ p.1 then
      .ok ⟨[p.2], .done, { e with txNpdu := (e.txNpdu + 1) % 4095 }⟩
    else
      match sendFrags acc e fuel (i + 1) ((fragNr + 1) % 256) (rest.drop p.1) with
      | .ok o => .ok { o with sent := p.2 :: o.sent }
      | r => r

/-- `gprs_sndcp_sne_handle_sn_unitdata_req` (sndcp.c:626-728) with the assertion of the primitive
handler in front of it (sndcp_prim.c:336). -/
def unitdataReq (acc : Nat → Bool) (e : TxEnt) (npdu : Octets) : Res TxOut :=
  if npdu.length = 0 then .ub .assertFail
  else if !msgbFits (npdu.length + 256) 128 npdu.length then .ub .assertFail
  else if npdu.length > sizeSub e.n201u 4 then sendFrags acc e (2 * npdu.length + 2) 0 0 npdu
  else
    let pdu := comHdr e.nsapi false true :: compHdr 0 0 :: (udataHdr e.txNpdu 0 ++ npdu)
    let e' := { e with txNpdu := (e.txNpdu + 1) % 4095 }
    if acc 0 then .ok ⟨[pdu], .done, e'⟩ else .ok ⟨[pdu], .refused, e'⟩

/-! ## Receiver -/

/-- `struct gprs_sndcp_defrag_state` (sndcp_private.h:103-128).  `frags` is `frag_list`, whose head
is the entry added last (`llist_add`); `timer`, `proto` and `data` are never used on this path. -/
structure Defrag where
  npdu : Nat := 0
  highestSeg : Nat := 0
  segHave : Nat := 0
  noMore : Bool := false
  totLen : Nat := 0
  frags : List (Nat × Octets) := []
  pcomp : Nat := 0
  dcomp : Nat := 0
  deriving DecidableEq, Repr

/-- What the handling of an LL-UNITDATA.ind shows: nothing, an SN-UNITDATA.ind with an N-PDU, or an
error return. -/
inductive RxOut where
  | quiet
  | deliver (npdu : Octets)
  | error (e : Errno)
  deriving DecidableEq, Repr

/-- `defrag_enqueue` (sndcp.c:276-302). -/
def defragEnqueue (s : Defrag) (seg : Nat) (data : Octets) : Defrag :=
  { s with
    frags := (seg, data) :: s.frags
    highestSeg := if seg > s.highestSeg then seg else s.highestSeg
    segHave := s.segHave ||| (1 <<< seg)
    totLen := (s.totLen + data.length) % 4294967296 }

/-- `defrag_have_all_segments` (sndcp.c:305-318). -/
def haveAll (s : Defrag) : Bool :=
  (List.range (s.highestSeg + 1)).foldl (fun m i => m ||| (1 <<< i)) 0 == s.segHave

/-- `defrag_get_seg` (sndcp.c:320-333): the most recently added entry with that number, and the
list without it. -/
def getSeg : List (Nat × Octets) → Nat → Option (Octets × List (Nat × Octets))
  | [], _ => none
  | f :: fs, n => if f.1 = n then some (f.2, fs)
    else match getSeg fs n with
      | some (d, rest) => some (d, f :: rest)
      | none => none

/-- The loop of `defrag_segments` (sndcp.c:408-425) over the segment numbers in `segs`; `buf` is
what was put into the message so far and `size` the size it was allocated with.  The list of
remaining fragments is part of every outcome: fragments taken before a missing one are gone. -/
def collect (size : Nat) : List Nat → List (Nat × Octets) → Octets →
    Res (Option Octets × List (Nat × Octets))
  | [], frags, buf => .ok (some buf, frags)
  | n :: ns, frags, buf =>
    match getSeg frags n with
    | none => .ok (none, frags)
    | some (d, rest) =>
      if !msgbFits size 128 (buf.length + d.length) then .ub .assertFail
      else collect size ns rest (buf ++ d)

/-- `defrag_segments` (sndcp.c:384-450).  The N-PDU handed up is `tot_len` octets of the buffer,
which is zero behind the octets put into it; reading behind its end is undefined behaviour. -/
def defragSegments (s : Defrag) : Res (Defrag × RxOut) :=
  match collect (s.totLen + 256) (List.range (s.highestSeg + 1)) s.frags [] with
  | .ok (none, frags) => .ok ({ s with frags := frags }, .error .eio)
  | .ok (some buf, frags) =>
    if !msgbFits (s.totLen + 256) 128 s.totLen then .ub .outOfBounds
    else .ok ({ s with frags := frags },
      .deliver ((buf ++ List.replicate s.totLen 0).take s.totLen))
  | .err e => .err e
  | .ub f => .ub f

/-- The end of `defrag_input` (sndcp.c:484-523) once the header is read: start over on a first
segment, enqueue, and hand up the N-PDU when it is complete. -/
def defragSeg (s : Defrag) (first more : Bool) (npdu seg : Nat) (data : Octets) :
    Res (Defrag × RxOut) :=
  let s0 := if first then
      { s with frags := [], npdu := npdu, noMore := false, highestSeg := 0, segHave := 0,
               totLen := 0 }
    else s
  let s1 := defragEnqueue s0 seg data
  let s2 := if more then s1 else { s1 with noMore := true }
  if s2.noMore && haveAll s2 then defragSegments s2 else .ok (s2, .quiet)

/-- `defrag_input` behind the common header (sndcp.c:462-481, 507): `off` is where
`struct sndcp_udata_hdr` starts.  A number of octets to copy beyond the PDU is undefined
behaviour. -/
def defragBody (s : Defrag) (b : Octets) (first more : Bool) (off : Nat) :
    Res (Defrag × RxOut) := do
  let u0 ← rd b off
  let u1 ← rd b (off + 1)
  let data ← rdN b (off + 2) (u32Sub b.length (off + 2))
  defragSeg s first more (u0 % 16 * 256 + u1) (u0 / 16) data

/-- `defrag_input` (sndcp.c:452-523): `b` is the SN-PDU with its length. -/
def defragInput (s : Defrag) (b : Octets) : Res (Defrag × RxOut) := do
  let h ← rd b 0
  let first := decide (h / 64 % 2 = 1)
  defragBody s b first (decide (h / 16 % 2 = 1)) (if first then 2 else 1)

/-- `gprs_sndcp_sne_handle_llc_ll_unitdata_ind` (sndcp.c:856-926). -/
def handleUnitdataInd (s : Defrag) (b : Octets) : Res (Defrag × RxOut) := do
  let h ← rd b 0
  if h / 32 % 2 = 0 then .ok (s, .error .einval)
  else if b.length < 3 then .ok (s, .error .eio)
  else if h / 64 % 2 = 1 then
    let c ← rd b 1
    let s := { s with pcomp := c % 16, dcomp := c / 16 }
    if h / 16 % 2 = 1 then defragInput s b
    else
      let _ ← rd b 2
      let _ ← rd b 3
      if b.length ≤ 4 then .ok (s, .error .eio)
      else .ok (s, .deliver (b.drop 4))
  else defragInput s b

/-- `gprs_sndcp_prim_handle_llc_ll_unitdata_ind` (sndcp_prim.c:463-489) for an LL-UNITDATA.ind
whose TLLI, SAPI and NSAPI belong to the entity with state `s`. -/
def llUnitdataInd (s : Defrag) (b : Octets) : Res (Defrag × RxOut) :=
  if b.length = 0 then .ub .assertFail else handleUnitdataInd s b

/-- A history of LL-UNITDATA.ind for one entity: the final state and the N-PDUs handed up, in
order.  (Sequencing only; corresponds to repeated calls from the LLC layer.) -/
def rxRun (s : Defrag) : List Octets → Res (Defrag × List Octets)
  | [] => .ok (s, [])
  | b :: bs =>
    match llUnitdataInd s b with
    | .ok (s1, o) =>
      match rxRun s1 bs with
      | .ok (s2, ds) => .ok (s2, match o with | .deliver d => d :: ds | _ => ds)
      | r => r
    | .err e => .err e
    | .ub f => .ub f

end Verif.Sndcp
