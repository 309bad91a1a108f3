import Verif.Basic
/-!
# Quality of service profile

Models src/common/qos.c and the layout of `struct osmo_gprs_sm_qos_profile`
(include/osmocom/gprs/sm/sm_qos.h:13-83): twenty octets, the extended rates in the order uplink
maximum, uplink guaranteed, downlink maximum, downlink guaranteed.
-/
namespace Verif.Qos

/-- `UINT32_MAX` -/
def uint32Max : Nat := 4294967295

/-- The second extension octet (qos.c:43-53). -/
def decExt2 (e2 : Option Nat) : Nat :=
  match e2 with
  | none => 256 * 1000
  | some v =>
    if v = 0 then 256 * 1000
    else if v = 0xf6 then 10 * 1000 * 1000
    else if v ≥ 0xa2 ∧ v ≤ 0xf6 then (1500 + (v - (0xa2 - 1)) * 100) * 1000
    else if v ≥ 0x3e ∧ v ≤ 0xa1 then (500 + (v - (0x3e - 1)) * 10) * 1000
    else (256 + v * 4) * 1000

/-- The first extension octet (qos.c:39-58). -/
def decExt1 (e1 e2 : Option Nat) : Nat :=
  match e1 with
  | none => 8640
  | some v =>
    if v = 0 then 8640
    else if v = 0xfa then decExt2 e2
    else if v ≥ 0xbb ∧ v ≤ 0xfa then (128 + (v - (0xbb - 1)) * 2) * 1000
    else if v ≥ 0x4b ∧ v ≤ 0xba then (16 + (v - (0x4b - 1))) * 1000
    else 8600 + v * 100

/-- `dec_mbr_kbps` (qos.c:28-68): the octets as numbers below 256, `none` for a null pointer.  In the
branch for 0x80 the code uses the octet with its top bit, as here. -/
def decMbr (m : Nat) (e1 e2 : Option Nat) : Nat :=
  if m = 0 then 0
  else if m = 0xff then uint32Max
  else if m = 0xfe then decExt1 e1 e2
  else if m ≥ 0x80 then 576 + m * 64
  else if m ≥ 0x40 then 64 + (m - 0x40) * 8
  else m

/-- `dec_transfer_delay_ms` (qos.c:70-78). -/
def decDelay (t : Nat) : Nat :=
  let t := t % 64
  if t ≤ 0x0f then t
  else if t ≤ 0x1f then 200 + (t - 0x10) * 50
  else 1000 + (t - 0x20) * 100

/-- `enc_transfer_delay_ms` (qos.c:147-164). -/
def encDelay (d : Nat) : Nat :=
  if d ≥ 4000 then 0x3e
  else if d ≥ 1000 then 0x20 + (d - 1000) / 100
  else if d ≥ 200 then 0x10 + (d - 200) / 50
  else
    let d := if d > 150 then 150 else d
    if d ≥ 10 then d / 10 else 1

/-- What `enc_mbr_kbps` stores: how many extension octets are needed and the three octets. -/
structure Coded where
  ext : Nat
  m : Nat
  e1 : Nat
  e2 : Nat
  deriving DecidableEq, Repr

/-- `enc_mbr_kbps` (qos.c:168-239).  Octets are stored modulo 256. -/
def encMbr (x : Nat) : Coded :=
  if x > 10 * 1000 * 1000 then ⟨2, 0xfe, 0xfa, 0xf6⟩
  else if x ≥ 1600 * 1000 then ⟨2, 0xfe, 0xfa, (0xa1 + (x - 1500 * 1000) / (100 * 1000)) % 256⟩
  else if x ≥ 510 * 1000 then ⟨2, 0xfe, 0xfa, (0x2d + (x - 500 * 1000) / (10 * 1000)) % 256⟩
  else if x ≥ 260 * 1000 then ⟨2, 0xfe, 0xfa, ((x - 256 * 1000) / (4 * 1000)) % 256⟩
  else if x ≥ 130 * 1000 then ⟨1, 0xfe, (0xba + (x - 128 * 1000) / (2 * 1000)) % 256, 0⟩
  else if x ≥ 17 * 1000 then ⟨1, 0xfe, (0x4a + (x - 16 * 1000) / 1000) % 256, 0⟩
  else if x ≥ 8700 then ⟨1, 0xfe, ((x - 8600) / 100) % 256, 0⟩
  else if x ≥ 576 then ⟨0, (0x80 + (x - 576) / 64) % 256, 0, 0⟩
  else if x ≥ 64 then ⟨0, (0x40 + (x - 64) / 8) % 256, 0, 0⟩
  else if x > 0 then ⟨0, x % 256, 0, 0⟩
  else ⟨0, 0xff, 0, 0⟩

/-- `struct osmo_gprs_sm_qos_profile_decoded` (sm_qos.h:69-83). -/
structure Profile where
  octets : List UInt8
  octets6to13 : Bool
  octet14 : Bool
  dlExt : Bool
  ulExt : Bool
  dlExt2 : Bool
  ulExt2 : Bool
  delay : Nat
  mbrDl : Nat
  mbrUl : Nat
  gbrDl : Nat
  gbrUl : Nat
  deriving DecidableEq, Repr

/-- `&source->…` dereferenced if the pointer is not null. -/
def rdIf (b : List UInt8) (present : Bool) (i : Nat) : Res (Option Nat) :=
  if present = true then Res.bind (rd b i) (fun v => .ok (some v)) else .ok none

/-- One rate: the octet and its two extensions (qos.c:121-141). -/
def parseRate (b : List UInt8) (i : Nat) (p1 : Bool) (i1 : Nat) (p2 : Bool) (i2 : Nat) : Res Nat := do
  let m ← rd b i
  let e1 ← rdIf b p1 i1
  let e2 ← rdIf b p2 i2
  .ok (decMbr m e1 e2)

/-- The computed fields, given which octets are present (qos.c:117-142). -/
def parseLong (b : List UInt8) (o14 dl1 ul1 dl2 ul2 : Bool) : Res Profile := do
  let t ← rd b 8
  let mbrDl ← parseRate b 6 dl1 14 dl2 18
  let mbrUl ← parseRate b 5 ul1 12 ul2 16
  let gbrDl ← parseRate b 10 dl1 15 dl2 19
  let gbrUl ← parseRate b 9 ul1 13 ul2 17
  .ok { octets := b ++ List.replicate (20 - b.length) 0, octets6to13 := true,
        octet14 := o14, dlExt := dl1, ulExt := ul1, dlExt2 := dl2, ulExt2 := ul2,
        delay := decDelay (t / 4), mbrDl := mbrDl, mbrUl := mbrUl, gbrDl := gbrDl,
        gbrUl := gbrUl }

/-- `gprs_qos_parse_qos_profile` (qos.c:82-145) for a buffer of `b.length` octets. -/
def parse (b : List UInt8) : Res Profile :=
  if b.length = 20 ∨ b.length = 18 ∨ b.length = 16 ∨ b.length = 14 ∨ b.length = 12 ∨ b.length = 11 then
    parseLong b (decide (b.length ≥ 12)) (decide (b.length ≥ 14)) (decide (b.length ≥ 16))
      (decide (b.length ≥ 18)) (decide (b.length ≥ 20))
  else if b.length = 3 then
    .ok { octets := b ++ List.replicate 17 0, octets6to13 := false, octet14 := false, dlExt := false,
          ulExt := false, dlExt2 := false, ulExt2 := false, delay := 0, mbrDl := 0, mbrUl := 0,
          gbrDl := 0, gbrUl := 0 }
  else .err .minus1

/-- `target[i] = v` -/
def put (b : List UInt8) (i v : Nat) : List UInt8 := b.set i (UInt8.ofNat v)

/-- Store one coded rate. -/
def putRate (b : List UInt8) (c : Coded) (i i1 i2 : Nat) : List UInt8 :=
  put (put (put b i c.m) i1 c.e1) i2 c.e2

/-- Octet 8: priority in the low two bits, never 0, transfer delay above (qos.c:256-263). -/
def octet8 (d : Profile) : Nat :=
  let o := (d.octets.getD 8 0).toNat
  let prio := if o % 4 = 0 then 1 else o % 4
  (if d.octets6to13 = true then encDelay d.delay % 64 else o / 4) * 4 + prio

/-- The twenty octets written by `gprs_qos_build_qos_profile` (qos.c:253-283). -/
def buildOctets (d : Profile) : List UInt8 :=
  let b := put d.octets 8 (octet8 d)
  let b := putRate b (encMbr d.mbrDl) 6 14 18
  let b := putRate b (encMbr d.mbrUl) 5 12 16
  let b := putRate b (encMbr d.gbrDl) 10 15 19
  putRate b (encMbr d.gbrUl) 9 13 17

/-- The length it returns (qos.c:284-303). -/
def buildLen (d : Profile) : Nat :=
  let dl := max (encMbr d.mbrDl).ext (encMbr d.gbrDl).ext
  let ul := max (encMbr d.mbrUl).ext (encMbr d.gbrUl).ext
  if ul = 2 then 20
  else if dl = 2 then 18
  else if ul = 1 then 16
  else if dl = 1 then 14
  else if d.octet14 = true then 12
  else if d.octets6to13 = true then 11
  else 5

/-- `gprs_qos_build_qos_profile` (qos.c:241-303): what the caller sends. -/
def build (d : Profile) : List UInt8 := (buildOctets d).take (buildLen d)

end Verif.Qos
