import Verif.Csn1.Enc

/-!
# Encoding of downlink control messages

The counterpart of `decodeDownlink`, for users of the library that act as the network.
-/
namespace Verif.Csn1

/-- `bitvec_write_field(vector, &writeIndex, data->X, n)` for the octet member `k` behind the union. -/
def encHdr (m : Mem) (k n : Nat) (s : ESt) : ESt := s.put 184 (m (dlUnion + k) % 256) n

/-- The octet with PR, TFI and D (`csn1_ts_44_060.c:4899-4905`). -/
def encHdrAc (m : Mem) (s : ESt) : ESt :=
  if m (dlUnion + 7) % 256 = 1 then
    let s := encHdr m 10 1 (encHdr m 9 5 (encHdr m 8 2 s))
    { s with bo := s.bo + 8 }
  else s

/-- The octet with RBSNe, FSe and spare bits (`csn1_ts_44_060.c:4906-4912`). -/
def encHdrExt (m : Mem) (s : ESt) : ESt :=
  if m (dlUnion + 4) % 256 = 1 ∧ m (dlUnion + 6) % 256 = 0 then
    let s := encHdr m 13 4 (encHdr m 12 1 (encHdr m 11 3 s))
    { s with bo := s.bo + 8 }
  else s

/-- The optional octets (`csn1_ts_44_060.c:4892-4913`). -/
def encHdrOpt (m : Mem) (s : ESt) : ESt :=
  if m dlUnion % 256 = 2 then
    let s := encHdr m 7 1 (encHdr m 6 1 (encHdr m 5 5 (encHdr m 4 1 s)))
    encHdrExt m (encHdrAc m { s with bo := s.bo + 8 })
  else s

/-- The header (`csn1_ts_44_060.c:4885-4914`). -/
def encHeader (m : Mem) (s : ESt) : ESt :=
  encHdrOpt m { encHdr m 3 3 (encHdr m 2 1 (encHdr m 1 2 (encHdr m 0 2 s))) with bo := 8 }

/-- `osmo_gprs_rlcmac_encode_downlink` (`csn1_ts_44_060.c:4862-5066`) of the structure at address 0 into a vector of 23
octets with any content.  `.ok`: the function returns 0.  Not modelled: the store of the number of bits in the
structure, which is not read, and callbacks in tables: `encD` reports an error (999) for them. -/
def encodeDownlink (v0 : Nat → Bool) (m : Mem) : CRes ESt :=
  if m dlUnion % 256 = 0 ∨ m dlUnion % 256 = 3 then .fail errGeneral
  else
    let s := encHeader m { vec := v0, wi := 0, bo := 0, rem := 0 }
    match dlTable (m 0 % 256) with
    | some t => encDone (encL m 184 0 t {} { s with rem := 184 - (s.bo : Int) })
    | none => .fail (-1)

end Verif.Csn1
