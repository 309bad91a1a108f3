import Verif.Csn1.Msg

/-!
# System information type 13
-/
namespace Verif.Csn1

/-- What the RLC/MAC context keeps of system information type 13 (`rlcmac_private.h:87-89`): the decoded
rest octets and the two timers taken from them, in milliseconds. -/
structure Si13Ctx where
  ro : Mem
  t3168 : Nat
  t3192 : Nat

/-- `decode_t3192_tbl` (`rlcmac.c:579`). -/
def t3192Tbl : List Nat := [500, 1000, 1500, 0, 80, 120, 160, 200]

/-- `gprs_rlcmac_handle_bcch_si13` (`rlcmac.c:584-613`): the 20 rest octets are decoded into the context;
T3168 and T3192 are then read from the cell options at offsets 37 and 38 of the structure, where they are
when no PBCCH is present.  `gprs_rlcmac_decode_t3192` asserts that the value is at most 7
(`rlcmac.c:577-582`).  The copy of the raw message (`si13`) is left out. -/
def handleSi13 (p : Pol) (v : List Bool) (c : Si13Ctx) : CRes Si13Ctx :=
  match decodeRest p t_SI13_RestOctets v 20 c.ro with
  | .ub u => .ub u
  | .fail e => .fail e
  | .ok s =>
    if 7 < s.byte 38 then .ub .assertFail
    else .ok { ro := s.mem, t3168 := (s.byte 37 + 1) * 500, t3192 := t3192Tbl.getD (s.byte 38) 0 }

end Verif.Csn1
