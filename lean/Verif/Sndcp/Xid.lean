import Verif.Sndcp.Segment
/-!
# SNDCP XID blocks: coding, decoding and negotiation of compression entities

Models src/sndcp/sndcp_xid.c (encoder 50-608, decoder 613-1672) and, on top of it, what sndcp.c and
sndcp_comp.c do with the fields.

A message is a list of octets; every read beyond its end is undefined behaviour, although the buffer
it lies in may be longer.  `OSMO_ASSERT` failures are `Res.ub Fault.assertFail`.
-/
namespace Verif.Sndcp

/-- Compression classes, `enum gprs_sndcp_xid_param_types` (xid.h:84-89) without the version
number. -/
inductive CClass where
  | data
  | proto
  deriving DecidableEq, Repr

/-- The tag of a class in an XID block (xid.h:84-89). -/
def CClass.tag : CClass → Nat
  | .data => 1
  | .proto => 2

/-- The parameter sets a compression field can have: the five pointers of
`struct gprs_sndcp_comp_field` (xid.h:75-81), of which at most one is set. -/
inductive Kind where
  | rfc1144
  | rfc2507
  | rohc
  | v42bis
  | v44
  deriving DecidableEq, Repr

/-- `gprs_sndcp_get_compression_class` (sndcp_xid.c:505-522). -/
def Kind.cls : Kind → CClass
  | .rfc1144 => .proto
  | .rfc2507 => .proto
  | .rohc => .proto
  | .v42bis => .data
  | .v44 => .data

/-- Algorithm numbers (xid.h:36-46). -/
def kindOf : CClass → Nat → Option Kind
  | .proto, 0 => some .rfc1144
  | .proto, 1 => some .rfc2507
  | .proto, 2 => some .rohc
  | .data, 0 => some .v42bis
  | .data, 1 => some .v44
  | _, _ => none

/-- Number of PCOMP / DCOMP values of an algorithm (xid.h:100-104, 119-126, 140-144, 180-183,
200-204). -/
def Kind.nComp : Kind → Nat
  | .rfc1144 => 2
  | .rfc2507 => 5
  | .rohc => 2
  | .v42bis => 1
  | .v44 => 2

/-- The `struct gprs_sndcp_*_params` (xid.h:91-198): the applicable NSAPIs, the integer parameters
in the order of the structure (negative: not given), and for ROHC the profiles. -/
structure Params where
  kind : Kind
  nsapis : List Nat
  vals : List Int
  profiles : List Nat := []
  deriving DecidableEq, Repr

/-- `struct gprs_sndcp_comp_field` (xid.h:56-82).  `algo` is the union as an unsigned number, `comp`
the first `comp_len` values. -/
structure CompField where
  p : Bool
  entity : Nat
  algo : Nat
  comp : List Nat
  params : Option Params
  deriving DecidableEq, Repr

/-- The class of a field; none stands for SNDCP_XID_INVALID_COMPRESSION
(`gprs_sndcp_get_compression_class`, sndcp_xid.c:505-522). -/
def CompField.cls (f : CompField) : Option CClass := f.params.map (·.kind.cls)

/-! ## Encoding -/

/-- One parameter as the encoder checks and writes it: 16 bits or 8 bits, and its range. -/
structure EncSpec where
  wide : Bool
  lo : Int
  hi : Int

/-- Ranges asserted by the encoders (sndcp_xid.c:104-106, 138-176, 216-231, 263-283, 317-366). -/
def encSpecs : Kind → List EncSpec
  | .rfc1144 => [⟨false, 0, 255⟩]
  | .rfc2507 => [⟨true, 1, 65535⟩, ⟨false, 1, 255⟩, ⟨false, 60, 255⟩, ⟨false, 3, 255⟩,
      ⟨true, 3, 65535⟩]
  | .rohc => [⟨true, 0, 16383⟩, ⟨true, 60, 255⟩]
  | .v42bis => [⟨false, 0, 3⟩, ⟨true, 512, 65535⟩, ⟨false, 6, 250⟩]
  | .v44 => [⟨false, 128, 192⟩, ⟨false, 0, 3⟩, ⟨true, 256, 65535⟩, ⟨true, 256, 65535⟩,
      ⟨true, 0, 65535⟩, ⟨true, 0, 65535⟩]

/-- A 16 bit value, high octet first. -/
def be16 (n : Nat) : Octets := [UInt8.ofNat (n / 256), UInt8.ofNat (n % 256)]

/-- `encode_pcomp_applicable_sapis` (sndcp_xid.c:50-83). -/
def encNsapis (ns : List Nat) : Res Octets :=
  if ns.length > 11 then .ub .assertFail
  else if ns.all (fun n => 5 ≤ n ∧ n ≤ 15) then
    .ok (be16 (ns.foldl (fun m n => m ||| (1 <<< n)) 0))
  else .ub .assertFail

/-- The integer parameters one after the other. -/
def encVals : List EncSpec → List Int → Res Octets
  | [], _ => .ok []
  | _ :: _, [] => .ub .assertFail
  | s :: ss, v :: vs =>
    if s.lo ≤ v ∧ v ≤ s.hi then
      match encVals ss vs with
      | .ok o => .ok ((if s.wide then be16 v.toNat else [UInt8.ofNat v.toNat]) ++ o)
      | r => r
    else .ub .assertFail

/-- The further assertions of `encode_dcomp_v44_params` (sndcp_xid.c:317, 351, 361). -/
def v44Ok : List Int → Bool
  | [c0, _, p1t, p1r, p3t, p3r] =>
    (c0 = 128 || c0 = 192) && decide (2 * p1t ≤ p3t) && decide (2 * p1r ≤ p3r)
  | _ => false

/-- The encoders of the parameter fields (sndcp_xid.c:85-370). -/
def encParams (q : Params) : Res Octets := do
  let n ← encNsapis q.nsapis
  let v ← encVals (encSpecs q.kind) q.vals
  if q.kind = .v44 ∧ v44Ok q.vals = false then .ub .assertFail
  else if q.kind = .rohc then
    if q.profiles.length > 16 then .ub .assertFail
    else .ok (n ++ v ++ (q.profiles.flatMap be16))
  else .ok (n ++ v)

/-- PCOMP / DCOMP values, two per octet (sndcp_xid.c:476-494). -/
def packNibbles : List Nat → Octets
  | [] => []
  | [a] => [UInt8.ofNat (a % 16 * 16)]
  | a :: b :: t => UInt8.ofNat (a % 16 * 16 + b % 16) :: packNibbles t

/-- `encode_comp_field` (sndcp_xid.c:375-502) with the assertion of its caller that it does not
fail (537); `room` is `dst_maxlen`. -/
def encodeCompField (room : Nat) (f : CompField) : Res Octets :=
  match f.params with
  | none => .ub .assertFail
  | some q => do
    let pl ← encParams q
    let len := if f.p then pl.length + (f.comp.length + 1) / 2 else pl.length
    if f.comp.length > 16 ∨ room < len + (if f.p then 3 else 2) ∨ f.entity > 31 ∨ f.algo > 31 ∨
        (f.p = true ∧ f.comp.any (· > 15) = true) then .ub .assertFail
    else .ok (UInt8.ofNat ((if f.p then 128 else 0) + f.entity) ::
      ((if f.p then [UInt8.ofNat f.algo] else []) ++
        (UInt8.ofNat (len % 256) :: ((if f.p then packNibbles f.comp else []) ++ pl))))

/-- The loop of `gprs_sndcp_pack_fields` (sndcp_xid.c:533-548) over the fields in sending order. -/
def packFields (room : Nat) (c : CClass) : List CompField → Octets → Res Octets
  | [], acc => .ok acc
  | f :: fs, acc =>
    if f.cls = some c then
      match encodeCompField (room - acc.length) f with
      | .ok o => packFields room c fs (acc ++ o)
      | r => r
    else packFields room c fs acc

/-- `tlv_put` of libosmocore as used at sndcp_xid.c:573, 588, 598: its length argument is a
`uint8_t`. -/
def tlvPut (tag : Nat) (v : Octets) : Octets :=
  UInt8.ofNat tag :: UInt8.ofNat (v.length % 256) :: v.take (v.length % 256)

/-- The TLV of one class, empty if no field belongs to it (sndcp_xid.c:581-606): what is written and
how much the byte counter grows. -/
def compileClass (c : CClass) (fields : List CompField) : Res (Octets × Nat) :=
  match packFields 512 c fields.reverse [] with
  | .ok [] => .ok ([], 0)
  | .ok o => .ok (tlvPut c.tag o, o.length + 2)
  | .err e => .err e
  | .ub f => .ub f

/-- `gprs_sndcp_compile_xid` (sndcp_xid.c:554-608): what is written to `dst` and the length
returned.  Writing more than `room` octets is undefined behaviour. -/
def compileXid (room : Nat) (fields : List CompField) (version : Int) : Res (Octets × Nat) :=
  if room < 3 then .ub .assertFail
  else
    let v : Octets := if 0 ≤ version then tlvPut 0 [UInt8.ofNat (version.toNat % 256)] else []
    if fields = [] then .ok (v, v.length)
    else do
      let (d, nd) ← compileClass .data fields
      let (q, nq) ← compileClass .proto fields
      if (v ++ d ++ q).length > room then .ub .outOfBounds
      else .ok (v ++ d ++ q, v.length + nd + nq)

/-! ## Decoding -/

/-- One parameter as the decoder reads it: width and range, and a condition on the values read
before it and its own value, violating which is an error (V.44 only). -/
structure DecSpec where
  wide : Bool
  lo : Nat
  hi : Nat
  check : List Nat → Nat → Bool := fun _ _ => true

/-- What the decoders accept (sndcp_xid.c:747-757, 786-830, 853-872, 902-930, 961-1020). -/
def decSpecs : Kind → List DecSpec
  | .rfc1144 => [{ wide := false, lo := 0, hi := 255 }]
  | .rfc2507 => [{ wide := true, lo := 1, hi := 65535 }, { wide := false, lo := 1, hi := 255 },
      { wide := false, lo := 60, hi := 255 }, { wide := false, lo := 3, hi := 255 },
      { wide := true, lo := 3, hi := 65535 }]
  | .rohc => [{ wide := true, lo := 0, hi := 16383 }, { wide := true, lo := 60, hi := 255 }]
  | .v42bis => [{ wide := false, lo := 0, hi := 3 }, { wide := true, lo := 512, hi := 65535 },
      { wide := false, lo := 6, hi := 250 }]
  | .v44 => [{ wide := false, lo := 0, hi := 255, check := fun _ v => v == 128 || v == 192 },
      { wide := false, lo := 0, hi := 3 }, { wide := true, lo := 265, hi := 65535 },
      { wide := true, lo := 265, hi := 65535 },
      { wide := true, lo := 265, hi := 65535,
        check := fun prev v => decide (2 * prev.getD 2 0 ≤ v) },
      { wide := true, lo := 265, hi := 65535,
        check := fun prev v => decide (2 * prev.getD 3 0 ≤ v) }]

/-- `decode_pcomp_applicable_sapis` (sndcp_xid.c:613-648): none if there are not enough octets. -/
def decNsapis (b : Octets) (pos len : Nat) : Res (Option (List Nat)) :=
  if len < 2 then .ok none
  else do
    let h ← rd b pos
    let l ← rd b (pos + 1)
    .ok (some (((List.range 11).filter (fun i => ((h * 256 + l) >>> 5 >>> i) % 2 = 1)).map (· + 5)))

/-- `decode_pcomp_16_bit_field` and `decode_pcomp_8_bit_field` (sndcp_xid.c:651-729): none if there
are not enough octets or the value is out of range. -/
def decField (s : DecSpec) (b : Octets) (pos len : Nat) : Res (Option Nat) :=
  if s.wide then
    if len < 2 then .ok none
    else do
      let h ← rd b pos
      let l ← rd b (pos + 1)
      .ok (if h * 256 + l < s.lo ∨ h * 256 + l > s.hi then none else some (h * 256 + l))
  else
    if len < 1 then .ok none
    else do
      let v ← rd b pos
      .ok (if v < s.lo ∨ v > s.hi then none else some v)

/-- The integer parameters one after the other, as far as they are there; `cnt` is
`byte_counter`. -/
def decVals (b : Octets) (start len : Nat) : List DecSpec → Nat → List Nat → Res (List Nat × Nat)
  | [], cnt, acc => .ok (acc, cnt)
  | s :: ss, cnt, acc =>
    match decField s b (start + cnt) (u32Sub len cnt) with
    | .ok none => .ok (acc, cnt)
    | .ok (some v) =>
      if s.check acc v then decVals b start len ss (cnt + if s.wide then 2 else 1) (acc ++ [v])
      else .err .einval
    | .err e => .err e
    | .ub f => .ub f

/-- A ROHC profile number: 16 bits, any value (sndcp_xid.c:866-870). -/
def profileSpec : DecSpec := { wide := true, lo := 0, hi := 65535 }

/-- The profiles of ROHC (sndcp_xid.c:865-876; `s` is `profileSpec`), up to `n` more: `profile_len` is zero again while a
profile is read, so it stays zero unless all sixteen are there. -/
def decProfiles (s : DecSpec) (b : Octets) (start len : Nat) : Nat → Nat → List Nat → Res (List Nat × Nat)
  | 0, cnt, acc => .ok (acc, cnt)
  | n + 1, cnt, acc =>
    match decField s b (start + cnt) (u32Sub len cnt) with
    | .ok none => .ok ([], cnt)
    | .ok (some v) => decProfiles s b start len n (cnt + 2) (acc ++ [v])
    | .err e => .err e
    | .ub f => .ub f

/-- The decoders of the parameter fields (sndcp_xid.c:732-1023): parameters and octets consumed.
Parameters not given are -1. -/
def decParams (k : Kind) (b : Octets) (start len : Nat) : Res (Params × Nat) := do
  let none' : List Int := List.replicate (decSpecs k).length (-1)
  match ← decNsapis b start len with
  | none => .ok ({ kind := k, nsapis := [], vals := none' }, 0)
  | some ns =>
    let (vs, cnt) ← decVals b start len (decSpecs k) 2 []
    let vals : List Int := vs.map Int.ofNat ++ none'.drop vs.length
    if k = .rohc ∧ vs.length = (decSpecs k).length then
      let (ps, cnt) ← decProfiles profileSpec b start len 16 cnt []
      .ok ({ kind := k, nsapis := ns, vals := vals, profiles := ps }, cnt)
    else .ok ({ kind := k, nsapis := ns, vals := vals }, cnt)

/-- PCOMP / DCOMP values from their octets (sndcp_xid.c:1107-1121). -/
def unpackNibbles : Nat → Octets → List Nat
  | 0, _ => []
  | 1, o :: _ => [o.toNat / 16]
  | n + 2, o :: os => o.toNat / 16 :: o.toNat % 16 :: unpackNibbles n os
  | _, [] => []

/-- `struct entity_algo_table` (sndcp_xid.c:42-46). -/
structure AlgoEntry where
  entity : Nat
  algo : Nat
  cls : CClass
  deriving DecidableEq, Repr

/-- `lookup_algorithm_identifier_pcomp` / `_dcomp` (sndcp_xid.c:1026-1062): without a table -1, not
found SNDCP_XID_INVALID_COMPRESSION, as unsigned numbers. -/
def lookupAlgo (c : CClass) (entity : Nat) (lt : Option (List AlgoEntry)) : Nat :=
  match lt with
  | none => 4294967295
  | some t => match t.find? (fun e => e.entity = entity ∧ e.cls = c) with
    | some e => e.algo
    | none => 3

/-- `decode_comp_values` (sndcp_xid.c:1066-1125): the values and the octets consumed. -/
def decCompValues (b : Octets) (pos : Nat) (p : Bool) (c : CClass) (algo : Nat) :
    Res (List Nat × Nat) :=
  if p then
    match kindOf c algo with
    | none => .err .einval
    | some k => do
      let os ← rdN b pos ((k.nComp + 1) / 2)
      .ok (unpackNibbles k.nComp os, (k.nComp + 1) / 2)
  else .ok ([], 0)

/-- `decode_pcomp_params` / `decode_dcomp_params` (sndcp_xid.c:1129-1213): an unknown algorithm
leaves the octets undecoded; their number is an `int`. -/
def decAlgoParams (b : Octets) (pos : Nat) (c : CClass) (algo len : Nat) :
    Res (Option Params × Nat) :=
  match kindOf c algo with
  | none => if len ≥ 2147483648 then .err .einval else .ok (none, len)
  | some k => do
    let (q, n) ← decParams k b pos len
    .ok (some q, n)

/-- The part of `decode_comp_field` behind the algorithm number (sndcp_xid.c:1274-1300); `pos` is
where the length field is, `hdr` the number of octets before it. -/
def decFieldBody (b : Octets) (pos hdr : Nat) (p : Bool) (entity algo : Nat) (c : CClass) :
    Res (CompField × Nat) := do
  let len ← rd b pos
  let (comp, rc) ← decCompValues b (pos + 1) p c algo
  let (q, n) ← decAlgoParams b (pos + 1 + rc) c algo (u32Sub len rc)
  .ok ({ p := p, entity := entity, algo := algo, comp := comp, params := q }, hdr + 1 + rc + n)

/-- `decode_comp_field` (sndcp_xid.c:1218-1301). -/
def decodeCompField (b : Octets) (pos avail : Nat) (lt : Option (List AlgoEntry)) (c : CClass) :
    Res (CompField × Nat) :=
  if avail < 1 then .err .einval
  else do
    let h ← rd b pos
    if h / 128 = 1 then
      let a ← rd b (pos + 1)
      decFieldBody b (pos + 2) 2 true (h % 32) (a % 32) c
    else decFieldBody b (pos + 1) 1 false (h % 32) (lookupAlgo c (h % 32) lt) c

/-- The loop of `decode_xid_block` (sndcp_xid.c:1313-1335): `left` more fields may follow before it
gives up.  The fields are prepended to `acc`. -/
def decodeBlock (b : Octets) (pos tagLen : Nat) (lt : Option (List AlgoEntry)) (c : CClass) :
    Nat → Nat → List CompField → Res (List CompField)
  | 0, _, _ => .err .einval
  | left + 1, cnt, acc =>
    match decodeCompField b (pos + cnt) (tagLen - cnt) lt c with
    | .ok (f, n) =>
      if tagLen > cnt + n then decodeBlock b pos tagLen lt c left (cnt + n) (f :: acc)
      else .ok (f :: acc)
    | .err e => .err e
    | .ub f => .ub f

/-- `tlv_parse_one` of libosmocore for the table of sndcp_xid.c:1355-1361 (tags 0, 1 and 2, all of
type TLV): tag, length and position of the value. -/
def tlvParseOne (b : Octets) (pos : Nat) : Res (Nat × Nat × Nat) :=
  if b.length < pos + 2 then .err .einval
  else do
    let t ← rd b pos
    let l ← rd b (pos + 1)
    if t > 2 then .err .einval
    else if b.length < pos + 2 + l then .err .einval
    else .ok (t, l, pos + 2)

/-- The version number of a TLV, if it is one and the caller asks for it (sndcp_xid.c:1383-1384). -/
def tlvVersion (b : Octets) (wantVersion : Bool) (version : Int) (t v : Nat) : Res Int :=
  if wantVersion ∧ t = 0 then do
    let x ← rd b v
    .ok (Int.ofNat x)
  else .ok version

/-- The compression fields of a TLV (sndcp_xid.c:1387-1397). -/
def tlvFields (b : Octets) (lt : Option (List AlgoEntry)) (acc : List CompField) (t l v : Nat) :
    Res (List CompField) :=
  if t = 1 then decodeBlock b v l lt .data 65 0 acc
  else if t = 2 then decodeBlock b v l lt .proto 65 0 acc
  else .ok acc

/-- The loop of `gprs_sndcp_decode_xid` (sndcp_xid.c:1365-1406); `left` is the number of TLVs it
still accepts. -/
def decodeXid (b : Octets) (wantVersion : Bool) (lt : Option (List AlgoEntry)) :
    Nat → Nat → Int → List CompField → Res (Int × List CompField)
  | 0, _, _, _ => .err .einval
  | left + 1, pos, version, acc =>
    match tlvParseOne b pos with
    | .err e => .err e
    | .ub f => .ub f
    | .ok (t, l, v) =>
      match tlvVersion b wantVersion version t v with
      | .err e => .err e
      | .ub f => .ub f
      | .ok version =>
        match tlvFields b lt acc t l v with
        | .err e => .err e
        | .ub f => .ub f
        | .ok acc =>
          if b.length - (v + l) ≤ 2 then .ok (version, acc)
          else decodeXid b wantVersion lt left (v + l) version acc

/-- `gprs_sndcp_fill_table` (sndcp_xid.c:1412-1450). -/
def fillTable (req : List CompField) : List AlgoEntry :=
  req.filterMap (fun f => f.cls.map (fun c => ⟨f.entity, f.algo, c⟩))

/-- `complete_comp_field_params` (sndcp_xid.c:1454-1563): missing values are taken from the request.
(The ROHC profiles are taken when there are some.) -/
def completeParams (dst src : Option Params) : Res (Option Params) :=
  match dst, src with
  | some d, some s =>
    if d.kind = s.kind then
      .ok (some { d with
        vals := (d.vals.zip s.vals).map (fun x => if x.1 < 0 then x.2 else x.1)
        profiles := if d.profiles.length > 0 then s.profiles else d.profiles })
    else .err .einval
  | _, _ => .err .einval

/-- `gprs_sndcp_complete_comp_field` (sndcp_xid.c:1566-1592): the return code is the one of the last
matching field of the request. -/
def completeField (f : CompField) (req : List CompField) : CompField × Bool :=
  req.foldl (fun st s =>
    if s.entity = f.entity then
      let g := if s.comp.length > 0 then { st.1 with comp := s.comp } else st.1
      match completeParams g.params s.params with
      | .ok q => ({ g with params := q }, true)
      | _ => (g, false)
    else st) (f, true)

/-- `gprs_sndcp_complete_comp_fields` (sndcp_xid.c:1595-1614). -/
def completeFields (req : List CompField) : List CompField → Res (List CompField)
  | [] => .ok []
  | f :: fs =>
    if (completeField f req).2 then
      match completeFields req fs with
      | .ok r => .ok ((completeField f req).1 :: r)
      | r => r
    else .err .einval

/-- `gprs_sndcp_parse_xid` (sndcp_xid.c:1617-1672): the version and the fields, head of the list
first; an error stands for NULL.  The table has room for 64 entries. -/
def parseXid (wantVersion : Bool) (b : Octets) (req : Option (List CompField)) :
    Res (Int × List CompField) :=
  if b = [] then .err .einval
  else match req with
    | none => decodeXid b wantVersion none 3 0 (-1) []
    | some r =>
      if (fillTable r).length > 64 then .ub .outOfBounds
      else match decodeXid b wantVersion (some (fillTable r)) 3 0 (-1) [] with
        | .ok (v, fs) => (match completeFields r fs with
          | .ok fs => .ok (v, fs)
          | .err e => .err e
          | .ub f => .ub f)
        | .err e => .err e
        | .ub f => .ub f

end Verif.Sndcp
