import Verif.Csn1.Tables

/-!
# The decoding functions
-/
namespace Verif.Csn1

/-- Size of the union `u` in `RlcMacDownlink_t`, that of its largest member `Packet_Measurement_Order_t`
(`csn1_defs.h:5076-5105`, laid out for x86-64); the members listed below follow it. -/
def dlUnion : Nat := 123684

/-- `sizeof(RlcMacDownlink_t)` (`csn1_defs.h:5074-5128`): fourteen octets and one `gint16` after the
union. -/
def dlSize : Nat := 123700

/-- Size of the union `u` in `RlcMacUplink_t`, that of `Packet_Enh_Measurement_Report_t`
(`csn1_defs.h:5132-5153`). -/
def ulUnion : Nat := 1376

/-- `sizeof(RlcMacUplink_t)`: the union, then `gint16 NrOfBits`, padded to four octets. -/
def ulSize : Nat := 1380

/-- `data->X = bitvec_read_field(vector, &readIndex, n)` for an octet member at `off`. -/
def hdrField (v : List Bool) (p : Pol) (off n : Nat) (s : CSt) : CRes CSt := do
  let t ← wr p 0 off 1 0 1 (bitsVal v s.rd n) s
  .ok { t with rd := t.rd + n }

/-- The octet with PR, TFI and D, if announced (`csn1_ts_44_060.c:4577-4583`). -/
def hdrAc (v : List Bool) (p : Pol) (s : CSt) : CRes CSt :=
  if s.byte (dlUnion + 7) = 1 then do
  let s ← hdrField v p (dlUnion + 8) 2 s
  let s ← hdrField v p (dlUnion + 9) 5 s
  let s ← hdrField v p (dlUnion + 10) 1 s
  .ok { s with bo := s.bo + 8 }
  else .ok s

/-- The octet with RBSNe, FSe and spare bits, if announced (`csn1_ts_44_060.c:4584-4590`). -/
def hdrExt (v : List Bool) (p : Pol) (s : CSt) : CRes CSt :=
  if s.byte (dlUnion + 4) = 1 ∧ s.byte (dlUnion + 6) = 0 then do
  let s ← hdrField v p (dlUnion + 11) 3 s
  let s ← hdrField v p (dlUnion + 12) 1 s
  let s ← hdrField v p (dlUnion + 13) 4 s
  .ok { s with bo := s.bo + 8 }
  else .ok s

/-- The optional octets of the header (`csn1_ts_44_060.c:4569-4591`). -/
def hdrOpt (v : List Bool) (p : Pol) (s : CSt) : CRes CSt := do
  let s ← hdrField v p (dlUnion + 4) 1 s
  let s ← hdrField v p (dlUnion + 5) 5 s
  let s ← hdrField v p (dlUnion + 6) 1 s
  let s ← hdrField v p (dlUnion + 7) 1 s
  let s ← hdrAc v p { s with bo := s.bo + 8 }
  hdrExt v p s

/-- The message itself (`csn1_ts_44_060.c:4592-4741`): the message type is looked at, the stream set up
behind the header octets, and the table of that message type decoded from its start. -/
def dlBody (v : List Bool) (p : Pol) (s : CSt) : CRes CSt := do
  let s ← hdrField v p 0 6 s
  let len : Nat := 184 - s.bo
  let s ← wr p 0 (dlUnion + 14) 2 0 2 len s
  match dlTable (s.byte 0) with
  | some t => decL v p 0 t {} { s with rd := s.bo, rem := len }
  | none => .fail errGeneral

/-- Is an optional octet announced (`PAYLOAD_TYPE_CTRL_OPT_OCTET`)? -/
def dlOpt (v : List Bool) (p : Pol) (s : CSt) : CRes CSt :=
  if s.byte dlUnion = 2 then hdrOpt v p s else .ok s

/-- `osmo_gprs_rlcmac_decode_downlink` (`csn1_ts_44_060.c:4538-4747`).  The result structure starts at
address 0 of the memory.  `.ok`: the function returns 0 and leaves this memory. -/
def decodeDownlink (p : Pol) (v : List Bool) (m : Mem) : CRes CSt := do
  let s ← hdrField v p dlUnion 2 { mem := m, rd := 0, bo := 0, rem := 0 }
  let s ← hdrField v p (dlUnion + 1) 2 s
  let s ← hdrField v p (dlUnion + 2) 1 s
  let s ← hdrField v p (dlUnion + 3) 3 s
  if s.byte dlUnion = 0 ∨ s.byte dlUnion = 3 then .fail errGeneral
  else do
    let s ← dlOpt v p { s with bo := 8 }
    dlBody v p s

/-- `osmo_gprs_rlcmac_decode_uplink` (`csn1_ts_44_060.c:4413-4535`).  Here the table starts with the
header octet. -/
def decodeUplink (p : Pol) (v : List Bool) (m : Mem) : CRes CSt :=
  if bitsVal v 0 2 = 0 ∨ bitsVal v 0 2 = 3 then .fail errGeneral
  else do
    let s ← wr p 0 ulUnion 2 0 2 184 { mem := m, rd := 0, bo := 0, rem := 0 }
    let s ← wr p 0 0 1 0 1 (bitsVal v 8 6) s
    match ulTable (s.byte 0) with
    | some t => decL v p 0 t {} { s with rd := 0, bo := 0, rem := 184 }
    | none => .fail errGeneral

/-- `_osmo_gprs_rlcmac_decode` (`csn1_ts_44_018.c:612-640`): the rest octets of a message on the
broadcast or common control channel, `n` octets. -/
def decodeRest (p : Pol) (t : List Csn) (v : List Bool) (n : Nat) (m : Mem) : CRes CSt :=
  decL v p 0 t {} { mem := m, rd := 0, bo := 0, rem := 8 * n }

end Verif.Csn1
